import Verif.Model.Jwt
import Verif.Props.Text
import Verif.Spec.Claims
import Verif.Spec.Loose

/-! Reading a struct and skipping its unknown members: `looseSlice` accepts exactly `LooseText`. -/

namespace Oid4vci
namespace Json

open Spec

/-! ### Octets -/

theorem octet_toNat (o : UInt8) : (Char.ofNat o.toNat).toNat = o.toNat := by
  have := o.toNat_lt
  exact toNat_ofNat (by omega)

theorem octets_iff {b : Bytes} {t : Str} : Octets b t ↔ t = octets b := by
  unfold Octets octets
  constructor
  · intro h
    have h2 : t.map Char.toNat = (b.map fun o => Char.ofNat o.toNat).map Char.toNat := by
      rw [← h, List.map_map]
      exact List.map_congr_left fun o _ => (octet_toNat o).symm
    exact List.map_injective_iff.2 (fun a b h => Char.toNat_inj.1 h) h2
  · rintro rfl
    rw [List.map_map]
    exact List.map_congr_left fun o _ => (octet_toNat o).symm

theorem octets_append (a b : Bytes) : octets (a ++ b) = octets a ++ octets b := List.map_append

theorem unoctets_append (a b : Str) : unoctets (a ++ b) = unoctets a ++ unoctets b := List.map_append

theorem unoctets_octets (b : Bytes) : unoctets (octets b) = b := by
  unfold unoctets octets
  rw [List.map_map]
  conv_rhs => rw [← List.map_id b]
  refine List.map_congr_left fun o _ => ?_
  simp only [Function.comp, octet_toNat, u8_ofNat_toNat, id]

/-- Every character is an octet. -/
def Narrow (s : Str) : Prop := ∀ c ∈ s, c.toNat < 256

theorem narrow_octets (b : Bytes) : Narrow (octets b) := by
  intro c hc
  obtain ⟨o, -, rfl⟩ := List.mem_map.1 hc
  rw [octet_toNat]; exact o.toNat_lt

theorem octets_unoctets {s : Str} (h : Narrow s) : octets (unoctets s) = s := by
  unfold unoctets octets
  rw [List.map_map]
  conv_rhs => rw [← List.map_id s]
  refine List.map_congr_left fun c hc => ?_
  simp only [Function.comp, u8_toNat_ofNat (h c hc), Char.ofNat_toNat, id]

theorem Narrow.of_append {s t : Str} (h : Narrow (s ++ t)) : Narrow s ∧ Narrow t :=
  ⟨fun c hc => h c (List.mem_append_left _ hc), fun c hc => h c (List.mem_append_right _ hc)⟩

theorem Narrow.of_cons {c : Char} {t : Str} (h : Narrow (c :: t)) : Narrow t :=
  fun x hx => h x (List.mem_cons_of_mem _ hx)

/-- The octets of the UTF-8 form. -/
def wide (s : Str) : Str := octets (utf8Encode s)

theorem utf8Text_iff {s t : Str} : Utf8Text s t ↔ t = wide s := by
  unfold Utf8Text wide
  constructor
  · rintro ⟨b, h1, h2⟩
    rw [(C66_encode s b).2 h1]; exact octets_iff.1 h2
  · rintro rfl
    exact ⟨_, isUtf8_encode s, octets_iff.2 rfl⟩

theorem wide_append (s t : Str) : wide (s ++ t) = wide s ++ wide t := by
  unfold wide; rw [utf8Encode_append, octets_append]

theorem wide_nil : wide [] = [] := rfl

theorem wide_cons (c : Char) (t : Str) : wide (c :: t) = wide [c] ++ wide t := wide_append [c] t

theorem wide_ascii {c : Char} (h : c.toNat < 128) (t : Str) : wide (c :: t) = c :: wide t := by
  rw [wide_cons]
  have : wide [c] = [c] := by
    simp only [wide, utf8Encode, List.flatMap_cons, List.flatMap_nil, utf8EncodeChar, h, if_true, octets,
      List.append_nil, List.map_cons, List.map_nil]
    rw [u8_toNat_ofNat (by omega), Char.ofNat_toNat]
  rw [this]; rfl

theorem wide_eq_self {s : Str} (h : ∀ c ∈ s, c.toNat < 128) : wide s = s := by
  induction s with
  | nil => rfl
  | cons c s ih => rw [wide_ascii (h c (by simp)), ih fun x hx => h x (List.mem_cons_of_mem _ hx)]

theorem wide_nonascii {c : Char} (h : 128 ≤ c.toNat) : ∀ x ∈ wide [c], 128 ≤ x.toNat := by
  intro x hx
  obtain ⟨o, ho, rfl⟩ := List.mem_map.1 hx
  rw [octet_toNat]
  have hc := octets_encodeChar c
  simp only [utf8Encode, List.flatMap_cons, List.flatMap_nil, List.append_nil] at ho
  have hm : o.toNat ∈ (utf8EncodeChar c).map UInt8.toNat := List.mem_map.2 ⟨o, ho, rfl⟩
  generalize (utf8EncodeChar c).map UInt8.toNat = l at hc hm
  generalize c.toNat = n at hc h
  cases hc <;> simp only [List.mem_cons, List.not_mem_nil, or_false] at hm <;> omega

theorem unoctets_wide (s : Str) : unoctets (wide s) = utf8Encode s := unoctets_octets _

theorem wide_injective {s t : Str} (h : wide s = wide t) : s = t := by
  have := congrArg unoctets h
  rw [unoctets_wide, unoctets_wide] at this
  exact utf8Encode_injective this

theorem decode_unoctets {s t : Str} (hs : Narrow s) : utf8Decode (unoctets s) = some t ↔ s = wide t := by
  constructor
  · intro h
    have := utf8Encode_decode _ _ h
    rw [wide, this, octets_unoctets hs]
  · rintro rfl
    rw [unoctets_wide, utf8Decode_encode]

/-! ### ASCII texts -/

theorem ws_ascii {w : Str} (h : Ws w) : ∀ c ∈ w, c.toNat < 128 := by
  intro c hc
  have := h c hc
  simp only [List.mem_cons, List.not_mem_nil, or_false] at this
  rcases this with rfl | rfl | rfl | rfl <;> decide

theorem wide_ws {w : Str} (h : Ws w) : wide w = w := wide_eq_self (ws_ascii h)

theorem digit_ascii {c : Char} (h : isDigit c = true) : c.toNat < 128 := by
  simp only [isDigit, Bool.and_eq_true, decide_eq_true_eq] at h
  omega

theorem digits_ascii {ds : List Nat} {s : Str} (h : DigitsText ds s) : ∀ c ∈ s, c.toNat < 128 :=
  fun c hc => digit_ascii ((digitsText_iff.1 h).2.1 c hc)

theorem int_ascii {n : Nat} {s : Str} (h : IntText n s) : ∀ c ∈ s, c.toNat < 128 :=
  fun c hc => digit_ascii ((intText_iff.1 h).2.1 c hc)

theorem number_ascii {j : Json.Lexical} {s : Str} (h : NumberText j s) : ∀ c ∈ s, c.toNat < 128 := by
  have hsign : ∀ {b : Bool} {t : Str}, (∀ c ∈ t, c.toNat < 128) →
      ∀ c ∈ (if b then ['-'] else []) ++ t, c.toNat < 128 := by
    intro b t ht c hc
    rcases List.mem_append.1 hc with hc | hc
    · cases b <;> simp at hc; subst hc; decide
    · exact ht c hc
  cases h with
  | nonneg n _ hi => exact int_ascii hi
  | negative n s hi =>
    intro c hc
    rcases List.mem_cons.1 hc with rfl | hc
    · decide
    · exact int_ascii hi c hc
  | otherwise neg n s f e hi hf he =>
    rw [List.append_assoc, List.append_assoc]
    refine hsign ?_
    intro c hc
    rcases List.mem_append.1 hc with hc | hc
    · exact int_ascii hi c hc
    rcases List.mem_append.1 hc with hc | hc
    · rcases hf with rfl | ⟨ds, t, hd, rfl⟩
      · cases hc
      · rcases List.mem_cons.1 hc with rfl | hc
        · decide
        · exact digits_ascii hd c hc
    · rcases he with rfl | ⟨ds, t, hd, x, hx, sign, hs, rfl⟩
      · cases hc
      · simp only [List.mem_cons, List.not_mem_nil, or_false] at hx hs
        rcases List.mem_cons.1 hc with rfl | hc
        · rcases hx with rfl | rfl <;> decide
        rcases List.mem_append.1 hc with hc | hc
        · rcases hs with rfl | rfl | rfl
          · cases hc
          · simp at hc; subst hc; decide
          · simp at hc; subst hc; decide
        · exact digits_ascii hd c hc

theorem hexVal_ascii {c : Char} {n : Nat} (h : hexVal c = some n) : c.toNat < 128 := by
  unfold hexVal at h
  repeat' split at h
  all_goals first | omega | cases h

theorem hex4_ascii {n : Nat} {s : Str} (h : Hex4 n s) : ∀ c ∈ s, c.toNat < 128 := by
  obtain ⟨a, b, c, d, rfl, hx⟩ := hex4_iff.1 h
  simp only [hex4, Option.bind_eq_bind, Option.bind_eq_some_iff] at hx
  obtain ⟨a', ha, b', hb, c', hc, d', hd, -⟩ := hx
  intro x hx
  simp only [List.mem_cons, List.not_mem_nil, or_false] at hx
  rcases hx with rfl | rfl | rfl | rfl <;> exact hexVal_ascii (by assumption)

theorem escape_ascii {e c : Char} (h : (e, c) ∈ escapes) : e.toNat < 128 := by
  have : ∀ p ∈ escapes, p.1.toNat < 128 := by decide
  exact this _ h

/-! ### A text that can be read can be skipped -/

theorem skippedChars_plain {s t : Str} (h : ∀ c ∈ s, 128 ≤ c.toNat) (ht : SkippedChars t) :
    SkippedChars (s ++ t) := by
  induction s with
  | nil => exact ht
  | cons c s ih =>
    have hc := h c (by simp)
    refine .plain _ _ (by omega) ?_ ?_ (ih fun x hx => h x (List.mem_cons_of_mem _ hx))
    · rintro rfl; exact absurd hc (by decide)
    · rintro rfl; exact absurd hc (by decide)

theorem skipped_chars {v t : Str} (h : CharsText v t) : SkippedChars (wide t) := by
  induction h with
  | nil => exact .nil
  | unescaped c v t h1 h2 h3 _ ih =>
    by_cases hc : c.toNat < 128
    · rw [wide_ascii hc]; exact .plain _ _ h1 h2 h3 ih
    · rw [wide_cons]; exact skippedChars_plain (wide_nonascii (by omega)) ih
  | escape e c v t he _ ih =>
    rw [wide_ascii (by decide), wide_ascii (escape_ascii he)]
    exact .escape _ _ _ he ih
  | unicode c h v t hx _ ih =>
    rw [wide_ascii (by decide), wide_ascii (by decide), wide_append, wide_eq_self (hex4_ascii hx)]
    exact .unicode _ _ _ hx ih
  | pair c hi lo h l v t hh hl h1 h2 h3 h4 hc _ ih =>
    rw [wide_ascii (by decide), wide_ascii (by decide), wide_append, wide_eq_self (hex4_ascii hh),
      wide_ascii (by decide), wide_ascii (by decide), wide_append, wide_eq_self (hex4_ascii hl)]
    exact .unicode _ _ _ hh (.unicode _ _ _ hl ih)

theorem wide_quoted (t : Str) : wide ('"' :: (t ++ ['"'])) = '"' :: (wide t ++ ['"']) := by
  rw [wide_ascii (by decide), wide_append]; rfl

theorem skipped_string {v t : Str} (h : StringText v t) : SkippedString (wide t) := by
  obtain ⟨u, hu, rfl⟩ := h
  exact ⟨wide u, skipped_chars hu, wide_quoted u⟩

mutual
theorem skipped_value : ∀ {j : Json} {t : Str}, ValueText j t → SkippedValue (wide t)
  | _, _, .null => .null
  | _, _, .true => .true
  | _, _, .false => .false
  | _, _, .integer n s h => by rw [wide_eq_self (number_ascii h)]; exact .number _ _ h
  | _, _, .float d s h _ => by rw [wide_eq_self (number_ascii h)]; exact .number _ _ h
  | _, _, .string v s h => .string _ (skipped_string h)
  | _, _, .emptyArray w hw => by
    rw [wide_ascii (by decide), wide_append, wide_ws hw]; exact .emptyArray w hw
  | _, _, .array x xs w s t hw hs ht => by
    have h1 := skipped_value hs
    have h2 := skipped_elements ht
    rw [wide_ascii (by decide), wide_append, wide_append, wide_ws hw]
    exact .array _ _ _ hw h1 h2
  | _, _, .emptyObject w hw => by
    rw [wide_ascii (by decide), wide_append, wide_ws hw]; exact .emptyObject w hw
  | _, _, .object k v kvs w s t hw hs ht => by
    have h1 := skipped_member hs
    have h2 := skipped_members ht
    rw [wide_ascii (by decide), wide_append, wide_append, wide_ws hw]
    exact .object _ _ _ hw h1 h2
theorem skipped_elements : ∀ {xs : List Json} {t : Str}, ElementsText xs t → SkippedElements (wide t)
  | _, _, .close w hw => by rw [wide_append, wide_ws hw]; exact .close w hw
  | _, _, .more x xs w w' s t hw hw' hs ht => by
    have h1 := skipped_value hs
    have h2 := skipped_elements ht
    rw [wide_append, wide_ascii (by decide), wide_append, wide_append, wide_ws hw, wide_ws hw']
    exact .more _ _ _ _ hw hw' h1 h2
theorem skipped_member : ∀ {k : Str} {v : Json} {t : Str}, MemberText k v t → SkippedMember (wide t)
  | _, _, _, .mk k v s w w' t hs hw hw' ht => by
    have h1 := skipped_value ht
    rw [wide_append, wide_append, wide_ascii (by decide), wide_append, wide_ws hw, wide_ws hw']
    exact .mk _ _ _ _ (skipped_string hs) hw hw' h1
theorem skipped_members : ∀ {kvs : List (Str × Json)} {t : Str}, MembersText kvs t →
    SkippedMembers (wide t)
  | _, _, .close w hw => by rw [wide_append, wide_ws hw]; exact .close w hw
  | _, _, .more k v kvs w w' s t hw hw' hs ht => by
    have h1 := skipped_member hs
    have h2 := skipped_members ht
    rw [wide_append, wide_ascii (by decide), wide_append, wide_append, wide_ws hw, wide_ws hw']
    exact .more _ _ _ _ hw hw' h1 h2
end

/-! ### Skipping accepts exactly the skipped texts -/

theorem isSome_hex4 {a b c d : Char} : (hex4 a b c d).isSome = true ↔ ∃ n, Hex4 n [a, b, c, d] := by
  rw [Option.isSome_iff_exists]
  constructor
  · rintro ⟨n, h⟩; exact ⟨n, hex4_iff.2 ⟨_, _, _, _, rfl, h⟩⟩
  · rintro ⟨n, h⟩
    obtain ⟨a', b', c', d', e, h⟩ := hex4_iff.1 h
    simp only [List.cons.injEq, and_true] at e
    obtain ⟨rfl, rfl, rfl, rfl⟩ := e
    exact ⟨n, h⟩

theorem skipStr_sound (s : Str) : ∀ r, skipStr s = some r → ∃ t, SkippedChars t ∧ s = t ++ '"' :: r := by
  induction hl : s.length using Nat.strongRecOn generalizing s with
  | _ n ih =>
  intro r h
  subst hl
  rw [skipStr.eq_def] at h
  split at h
  · cases h
  split at h
  · cases h; subst_vars; exact ⟨[], .nil, rfl⟩
  split at h
  · subst_vars
    split at h
    · split at h
      · rename_i hx
        obtain ⟨n, hx⟩ := isSome_hex4.1 hx
        obtain ⟨t, ht, rfl⟩ := ih _ (by simp; omega) _ rfl _ h
        exact ⟨_, .unicode _ _ _ hx ht, by simp⟩
      · cases h
    · split at h
      · rename_i hx
        obtain ⟨c, hx⟩ := Option.isSome_iff_exists.1 hx
        obtain ⟨t, ht, rfl⟩ := ih _ (by simp; omega) _ rfl _ h
        exact ⟨_, .escape _ _ _ (mem_escapes.2 hx) ht, rfl⟩
      · cases h
    · cases h
  split at h
  · cases h
  · obtain ⟨t, ht, rfl⟩ := ih _ (by simp) _ rfl _ h
    exact ⟨_, .plain _ _ (by omega) (by assumption) (by assumption) ht, rfl⟩

theorem skipStr_complete {t : Str} (h : SkippedChars t) (r : Str) : skipStr (t ++ '"' :: r) = some r := by
  induction h with
  | nil => rw [skipStr.eq_def]; simp
  | plain c t h1 h2 h3 _ ih =>
    rw [List.cons_append, skipStr.eq_def]
    simp only [h2, h3, if_false, if_neg (show ¬ c.toNat < 32 by omega), ih]
  | escape e c t he _ ih =>
    rw [mem_escapes] at he
    have hu : e ≠ 'u' := by rintro rfl; exact absurd (he.symm.trans (by decide : simpleEscape 'u' = none)) (by simp)
    rw [List.cons_append, List.cons_append, skipStr.eq_def]
    simp only [Char.reduceEq, if_false, if_true]
    split
    · rename_i heq; simp at heq; exact absurd heq.1 hu
    · rename_i heq; simp only [List.cons.injEq] at heq
      obtain ⟨rfl, rfl⟩ := heq
      rw [he]; simp only [Option.isSome_some, if_true, ih]
    · rename_i heq; cases heq
  | unicode n h t hx _ ih =>
    obtain ⟨a, b, c', d, rfl, hx'⟩ := hex4_iff.1 hx
    rw [skipStr.eq_def]
    simp only [List.cons_append, List.nil_append, Char.reduceEq, if_false, if_true, hx',
      Option.isSome_some, ih]

theorem skip_sound_aux (f : Nat) :
    (∀ s r, skipValue f s = some r → ∃ w t, Ws w ∧ SkippedValue t ∧ s = w ++ t ++ r) ∧
    (∀ s r, skipElems f s = some r → ∃ t, SkippedElements t ∧ s = t ++ r) ∧
    (∀ s r, skipMember f s = some r → ∃ w t, Ws w ∧ SkippedMember t ∧ s = w ++ t ++ r) ∧
    (∀ s r, skipMembers f s = some r → ∃ t, SkippedMembers t ∧ s = t ++ r) := by
  induction f with
  | zero =>
    refine ⟨?_, ?_, ?_, ?_⟩ <;> intro s r h
    · rw [skipValue] at h; cases h
    · rw [skipElems] at h; cases h
    · rw [skipMember] at h; cases h
    · rw [skipMembers] at h; cases h
  | succ f ih =>
    refine ⟨?_, ?_, ?_, ?_⟩
    · intro s r h
      obtain ⟨w, hw, hs, -⟩ := skipWs_sound s
      rw [skipValue] at h
      split at h
      · cases h
      rename_i c r0 hsk
      rw [hsk] at hs
      split at h
      · subst_vars
        obtain ⟨t, ht, rfl⟩ := skipStr_sound _ _ h
        exact ⟨w, '"' :: (t ++ ['"']), hw, .string _ ⟨t, ht, rfl⟩, by simp⟩
      split at h
      · subst_vars
        split at h
        · rename_i r' hr0
          cases h
          obtain ⟨w', hw', hs', -⟩ := skipWs_sound r0
          rw [hr0] at hs'
          subst hs'
          exact ⟨w, '[' :: (w' ++ [']']), hw, .emptyArray _ hw', by simp⟩
        · split at h
          · cases h
          rename_i r' hx
          obtain ⟨w1, t1, hw1, ht1, rfl⟩ := ih.1 _ _ hx
          obtain ⟨t2, ht2, rfl⟩ := ih.2.1 _ _ h
          exact ⟨w, '[' :: (w1 ++ t1 ++ t2), hw, .array _ _ _ hw1 ht1 ht2, by simp⟩
      split at h
      · subst_vars
        split at h
        · rename_i r' hr0
          cases h
          obtain ⟨w', hw', hs', -⟩ := skipWs_sound r0
          rw [hr0] at hs'
          subst hs'
          exact ⟨w, '{' :: (w' ++ ['}']), hw, .emptyObject _ hw', by simp⟩
        · split at h
          · cases h
          rename_i r' hx
          obtain ⟨w1, t1, hw1, ht1, rfl⟩ := ih.2.2.1 _ _ hx
          obtain ⟨t2, ht2, rfl⟩ := ih.2.2.2 _ _ h
          exact ⟨w, '{' :: (w1 ++ t1 ++ t2), hw, .object _ _ _ hw1 ht1 ht2, by simp⟩
      split at h
      · simp only [Option.map_eq_some_iff] at h
        obtain ⟨⟨j, r'⟩, hp, rfl⟩ := h
        obtain ⟨t, ht, rfl⟩ := parseNumber_sound hp
        subst_vars
        exact ⟨w, _, hw, .number _ _ ht, by simp⟩
      split at h
      · simp only [Option.map_eq_some_iff] at h
        obtain ⟨⟨j, r'⟩, hp, rfl⟩ := h
        obtain ⟨t, ht, e⟩ := parseNumber_sound hp
        subst hs
        exact ⟨w, _, hw, .number _ _ ht, by rw [e]; simp⟩
      split at h
      · rename_i heq; cases h; subst hs; rw [heq]; exact ⟨w, _, hw, .null, by simp⟩
      · rename_i heq; cases h; subst hs; rw [heq]; exact ⟨w, _, hw, .true, by simp⟩
      · rename_i heq; cases h; subst hs; rw [heq]; exact ⟨w, _, hw, .false, by simp⟩
      · cases h
    · intro s r h
      obtain ⟨w, hw, hs, -⟩ := skipWs_sound s
      rw [skipElems] at h
      split at h
      · rename_i heq; cases h; rw [heq] at hs; subst hs; exact ⟨_, .close w hw, by simp⟩
      · rename_i heq
        rw [heq] at hs; subst hs
        split at h
        · cases h
        rename_i hx
        obtain ⟨w1, t1, hw1, ht1, rfl⟩ := ih.1 _ _ hx
        obtain ⟨t2, ht2, rfl⟩ := ih.2.1 _ _ h
        exact ⟨_, .more _ _ _ _ hw hw1 ht1 ht2, by simp⟩
      · cases h
    · intro s r h
      obtain ⟨w, hw, hs, -⟩ := skipWs_sound s
      rw [skipMember] at h
      split at h
      · rename_i heq
        rw [heq] at hs; subst hs
        split at h
        · cases h
        rename_i hx
        obtain ⟨t1, ht1, rfl⟩ := skipStr_sound _ _ hx
        split at h
        · rename_i r2 _ _ heq2
          obtain ⟨w2, hw2, hs2, -⟩ := skipWs_sound r2
          rw [heq2] at hs2
          obtain ⟨w3, t3, hw3, ht3, rfl⟩ := ih.1 _ _ h
          refine ⟨w, _, hw, .mk _ _ _ _ ⟨t1, ht1, rfl⟩ hw2 hw3 ht3, ?_⟩
          rw [hs2]; simp
        · cases h
      · cases h
    · intro s r h
      obtain ⟨w, hw, hs, -⟩ := skipWs_sound s
      rw [skipMembers] at h
      split at h
      · rename_i heq; cases h; rw [heq] at hs; subst hs; exact ⟨_, .close w hw, by simp⟩
      · rename_i heq
        rw [heq] at hs; subst hs
        split at h
        · cases h
        rename_i hx
        obtain ⟨w1, t1, hw1, ht1, rfl⟩ := ih.2.2.1 _ _ hx
        obtain ⟨t2, ht2, rfl⟩ := ih.2.2.2 _ _ h
        exact ⟨_, .more _ _ _ _ hw hw1 ht1 ht2, by simp⟩
      · cases h

theorem skippedValue_cons {t : Str} (h : SkippedValue t) :
    ∃ c t', t = c :: t' ∧ isWs c = false ∧ c ≠ ']' ∧ c ≠ '}' := by
  cases h with
  | null => exact ⟨_, _, rfl, by decide⟩
  | true => exact ⟨_, _, rfl, by decide⟩
  | false => exact ⟨_, _, rfl, by decide⟩
  | number _ _ h => exact numberText_cons h
  | string s h => obtain ⟨t, -, rfl⟩ := h; exact ⟨_, _, rfl, by decide⟩
  | emptyArray => exact ⟨_, _, rfl, by decide⟩
  | array => exact ⟨_, _, rfl, by decide⟩
  | emptyObject => exact ⟨_, _, rfl, by decide⟩
  | object => exact ⟨_, _, rfl, by decide⟩

theorem skippedElements_ends {t : Str} (h : SkippedElements t) (r : Str) : Ends (t ++ r) := by
  cases h with
  | close w hw => rw [List.append_assoc]; exact ws_ends hw (by decide)
  | more w w' s t hw => rw [List.append_assoc, List.cons_append]; exact ws_ends hw (by decide)

theorem skippedMembers_ends {t : Str} (h : SkippedMembers t) (r : Str) : Ends (t ++ r) := by
  cases h with
  | close w hw => rw [List.append_assoc]; exact ws_ends hw (by decide)
  | more w w' s t hw => rw [List.append_assoc, List.cons_append]; exact ws_ends hw (by decide)

theorem skippedMember_cons {t : Str} (h : SkippedMember t) : ∃ t', t = '"' :: t' := by
  cases h with
  | mk s w w' t hs => obtain ⟨u, -, rfl⟩ := hs; exact ⟨_, rfl⟩

theorem skip_complete_aux (f : Nat) :
    (∀ w t r, Ws w → SkippedValue t → t.length ≤ f → Ends r → skipValue f (w ++ t ++ r) = some r) ∧
    (∀ t r, SkippedElements t → t.length ≤ f → skipElems f (t ++ r) = some r) ∧
    (∀ w t r, Ws w → SkippedMember t → t.length ≤ f → Ends r → skipMember f (w ++ t ++ r) = some r) ∧
    (∀ t r, SkippedMembers t → t.length ≤ f → skipMembers f (t ++ r) = some r) := by
  induction f with
  | zero =>
    refine ⟨?_, ?_, ?_, ?_⟩
    · intro w t r _ h hl
      obtain ⟨c, t', rfl, -⟩ := skippedValue_cons h
      simp at hl
    · intro t r h hl
      cases h <;> simp at hl
    · intro w t r _ h hl
      obtain ⟨t', rfl⟩ := skippedMember_cons h
      simp at hl
    · intro t r h hl
      cases h <;> simp at hl
  | succ f ih =>
    refine ⟨?_, ?_, ?_, ?_⟩
    · intro w t r hw h hl hr
      rw [List.append_assoc, skipValue, skipWs_append hw]
      cases h with
      | null => simp [skipWs, isWs, isDigit]
      | true => simp [skipWs, isWs, isDigit]
      | false => simp [skipWs, isWs, isDigit]
      | number _ _ h =>
        rcases number_complete h hr with ⟨t', rfl, hp⟩ | ⟨c, t', rfl, hdig, hp⟩
        · rw [List.cons_append, skipWs_cons (by decide)]
          simp only [Char.reduceEq, if_true, if_false, hp, Option.map_some]
        · obtain ⟨h1, h2, h3, h4, -, -, h5, -⟩ := isDigit_facts hdig
          rw [List.cons_append] at hp ⊢
          rw [skipWs_cons h1]
          simp only [h2, h3, h4, h5, hdig, if_true, if_false, hp, Option.map_some]
      | string s h =>
        obtain ⟨t, ht, rfl⟩ := h
        rw [List.cons_append, List.append_assoc, skipWs_cons (by decide)]
        simp only [if_true, List.cons_append, List.nil_append, skipStr_complete ht]
      | emptyArray w' hw' =>
        rw [List.cons_append, List.append_assoc, skipWs_cons (by decide)]
        have hs : skipWs (w' ++ ([']'] ++ r)) = ']' :: r := by
          rw [skipWs_append hw']; exact skipWs_cons (by decide)
        simp only [Char.reduceEq, if_true, if_false, hs]
      | array w' s u hw' hx hxs =>
        simp only [List.length_cons, List.length_append] at hl
        have h1 := ih.1 w' s (u ++ r) hw' hx (by omega) (skippedElements_ends hxs r)
        have h2 := ih.2.1 u r hxs (by omega)
        obtain ⟨c, t', rfl, c1, c2, -⟩ := skippedValue_cons hx
        rw [List.cons_append, List.append_assoc, skipWs_cons (by decide)]
        have hs : skipWs (w' ++ c :: t' ++ (u ++ r)) = c :: (t' ++ (u ++ r)) := by
          rw [List.append_assoc, skipWs_append hw']; exact skipWs_cons c1
        simp only [Char.reduceEq, if_true, if_false, hs, h1]
        split
        · rename_i heq; simp at heq; exact absurd heq.1 c2
        · exact h2
      | emptyObject w' hw' =>
        rw [List.cons_append, List.append_assoc, skipWs_cons (by decide)]
        have hs : skipWs (w' ++ (['}'] ++ r)) = '}' :: r := by
          rw [skipWs_append hw']; exact skipWs_cons (by decide)
        simp only [Char.reduceEq, if_true, if_false, hs]
      | object w' s u hw' hx hxs =>
        simp only [List.length_cons, List.length_append] at hl
        have h1 := ih.2.2.1 w' s (u ++ r) hw' hx (by omega) (skippedMembers_ends hxs r)
        have h2 := ih.2.2.2 u r hxs (by omega)
        obtain ⟨t', rfl⟩ := skippedMember_cons hx
        rw [List.cons_append, List.append_assoc, skipWs_cons (by decide)]
        have hs : skipWs (w' ++ '"' :: t' ++ (u ++ r)) = '"' :: (t' ++ (u ++ r)) := by
          rw [List.append_assoc, skipWs_append hw']; exact skipWs_cons (by decide)
        simp only [Char.reduceEq, if_true, if_false, hs, h1, h2]
        rfl
    · intro t r h hl
      rw [skipElems]
      cases h with
      | close w hw =>
        rw [List.append_assoc, skipWs_append hw]
        have : skipWs ([']'] ++ r) = ']' :: r := skipWs_cons (by decide)
        rw [this]
        rfl
      | more w w' s u hw hw' hx hxs =>
        simp only [List.length_cons, List.length_append] at hl
        have h1 := ih.1 w' s (u ++ r) hw' hx (by omega) (skippedElements_ends hxs r)
        have h2 := ih.2.1 u r hxs (by omega)
        rw [List.append_assoc, skipWs_append hw, List.cons_append, skipWs_cons (by decide)]
        simp only [List.append_assoc] at h1 ⊢
        simp only [h1, h2]
    · intro w t r hw h hl hr
      rw [List.append_assoc, skipMember, skipWs_append hw]
      cases h with
      | mk s w1 w2 t hs hw1 hw2 ht =>
        obtain ⟨u, hu, rfl⟩ := hs
        simp only [List.length_cons, List.length_append] at hl
        have h1 := ih.1 w2 t r hw2 ht (by omega) hr
        simp only [List.cons_append, List.append_assoc, List.nil_append] at h1 ⊢
        rw [skipWs_cons (by decide)]
        simp only [skipStr_complete hu, skipWs_append hw1]
        rw [skipWs_cons (by decide)]
        exact h1
    · intro t r h hl
      rw [skipMembers]
      cases h with
      | close w hw =>
        rw [List.append_assoc, skipWs_append hw]
        have : skipWs (['}'] ++ r) = '}' :: r := skipWs_cons (by decide)
        rw [this]
        rfl
      | more w w' s u hw hw' hx hxs =>
        simp only [List.length_cons, List.length_append] at hl
        have h1 := ih.2.2.1 w' s (u ++ r) hw' hx (by omega) (skippedMembers_ends hxs r)
        have h2 := ih.2.2.2 u r hxs (by omega)
        rw [List.append_assoc, skipWs_append hw, List.cons_append, skipWs_cons (by decide)]
        simp only [List.append_assoc] at h1 ⊢
        simp only [h1, h2]

/-! ### The members of a struct -/

theorem taken_append (t r : Str) : taken (t ++ r) r = t := by
  unfold taken
  rw [List.length_append, Nat.add_sub_cancel]
  exact List.take_left

/-- The name of a member. -/
theorem rawName_iff {t k : Str} (ht : Narrow (t ++ ['"'])) :
    rawName (t ++ ['"']) = some k ↔ ∃ u, CharsText k u ∧ t = wide u := by
  unfold rawName
  constructor
  · intro h
    split at h
    · rename_i k' heq
      cases h
      obtain ⟨s, hs, hp⟩ := Option.bind_eq_some_iff.1 heq
      obtain ⟨u, hu, rfl⟩ := parseStr_sound _ _ _ hp
      have := (decode_unoctets ht).1 hs
      rw [wide_append] at this
      exact ⟨u, hu, List.append_cancel_right (this.trans rfl)⟩
    · cases h
  · rintro ⟨u, hu, rfl⟩
    have : utf8Decode (unoctets (wide u ++ ['"'])) = some (u ++ ['"']) :=
      (decode_unoctets ht).2 (by rw [wide_append]; rfl)
    rw [this, Option.bind_some, parseStr_complete hu]

theorem parseSlice_unoctets {s : Str} {v : Json} (hs : Narrow s) : parseSlice (unoctets s) = some v ↔
    ∃ u, s = wide u ∧ JsonText v u ∧ depth v ≤ 127 := by
  simp only [parseSlice, Option.bind_eq_some_iff, decode_unoctets hs, C65_grammar]

theorem looseMember_sound {known : List Str} {s r : Str} {k : Str} {v : Json} (hn : Narrow s)
    (h : looseMember known s = some ((k, v), r)) :
    ∃ w t, Ws w ∧ LooseMember known k v t ∧ s = w ++ t ++ r := by
  obtain ⟨w, hw, hs, -⟩ := skipWs_sound s
  unfold looseMember at h
  split at h
  · rename_i r0 heq
    rw [heq] at hs
    split at h
    · cases h
    rename_i r1 hx
    obtain ⟨t1, ht1, rfl⟩ := skipStr_sound _ _ hx
    have e1 : t1 ++ '"' :: r1 = (t1 ++ ['"']) ++ r1 := by simp
    rw [e1, taken_append] at h
    rw [hs] at hn
    have hn1 := hn.of_append.2.of_cons
    rw [e1] at hn1
    split at h
    · cases h
    rename_i k' hk
    obtain ⟨u, hu, rfl⟩ := (rawName_iff hn1.of_append.1).1 hk
    split at h
    · rename_i r2 heq2
      obtain ⟨w2, hw2, hs2, -⟩ := skipWs_sound r1
      rw [heq2] at hs2
      have hn2 := hn1.of_append.2
      rw [hs2] at hn2
      have hn2 := hn2.of_append.2.of_cons
      split at h
      · cases h
      rename_i r3 hx3
      obtain ⟨w3, t3, hw3, ht3, rfl⟩ := (skip_sound_aux _).1 _ _ hx3
      rw [taken_append] at h
      have hst : StringText k' ('"' :: (u ++ ['"'])) := ⟨u, hu, rfl⟩
      have hut : Utf8Text ('"' :: (u ++ ['"'])) ('"' :: (wide u ++ ['"'])) :=
        utf8Text_iff.2 (wide_quoted u).symm
      split at h
      · rename_i hin
        simp only [Option.map_eq_some_iff] at h
        obtain ⟨v', hv, e⟩ := h
        cases e
        obtain ⟨x, hx, ⟨wa, tx, wb, hwa, htx, hwb, rfl⟩, hd⟩ := (parseSlice_unoctets hn2.of_append.1).1 hv
        rw [wide_append, wide_append, wide_ws hwa, wide_ws hwb] at hx
        -- the value starts and ends with a character that is no white space
        refine ⟨w, '"' :: (wide u ++ ['"']) ++ w2 ++ ':' :: (w3 ++ t3), hw, ?_, ?_⟩
        · obtain ⟨c, t', e, hc, -⟩ := skippedValue_cons ht3
          obtain ⟨c', t'', e', hc', -⟩ := skippedValue_cons (skipped_value htx)
          have h1 : skipWs (w3 ++ t3) = t3 := by
            rw [skipWs_append hw3, e]; exact skipWs_cons hc
          have h2 : skipWs (wa ++ wide tx ++ wb) = wide tx ++ wb := by
            rw [List.append_assoc, skipWs_append hwa, e']; exact skipWs_cons hc'
          have h3 : t3 = wide tx ++ wb := by rw [← h1, ← h2, hx]
          have h4 := (skip_complete_aux t3.length).1 [] t3 [] (by simp [Ws]) ht3 le_rfl (by intro c hc; simp at hc)
          have h5 := (skip_complete_aux t3.length).1 [] (wide tx) wb (by simp [Ws]) (skipped_value htx)
            (by rw [h3, List.length_append]; omega) (ws_ends_nil hwb)
          rw [List.nil_append, List.append_nil] at h4
          rw [List.nil_append, ← h3] at h5
          rw [h4] at h5
          cases h5
          rw [List.append_nil] at h3
          exact .known _ _ _ _ _ _ _ _ hin hst hut hw2 hw3 htx hd (utf8Text_iff.2 h3)
        · rw [hs, hs2]; simp
      · rename_i hin
        cases h
        refine ⟨w, '"' :: (wide u ++ ['"']) ++ w2 ++ ':' :: (w3 ++ t3), hw,
          .other _ _ _ _ _ _ hin hst hut hw2 hw3 ht3, ?_⟩
        rw [hs, hs2]; simp
    · cases h
  · cases h

theorem narrow_wide (s : Str) : Narrow (wide s) := narrow_octets _

theorem Narrow.append {s t : Str} (hs : Narrow s) (ht : Narrow t) : Narrow (s ++ t) := by
  intro c hc
  rcases List.mem_append.1 hc with h | h
  · exact hs c h
  · exact ht c h

theorem narrow_ws {w : Str} (h : Ws w) : Narrow w := fun c hc => by
  have := ws_ascii h c hc; omega

theorem looseMember_complete {known : List Str} {w t r : Str} {k : Str} {v : Json} (hw : Ws w)
    (h : LooseMember known k v t) (hr : Ends r) :
    looseMember known (w ++ t ++ r) = some ((k, v), r) := by
  unfold looseMember
  rw [List.append_assoc, skipWs_append hw]
  have name : ∀ {n s : Str}, StringText k n → Utf8Text n s → ∃ u, CharsText k u ∧
      s = '"' :: (wide u ++ ['"']) := by
    rintro n s ⟨u, hu, rfl⟩ h
    exact ⟨u, hu, by rw [utf8Text_iff.1 h, wide_quoted]⟩
  have hraw : ∀ {u : Str}, CharsText k u → rawName (wide u ++ ['"']) = some k := fun hu =>
    (rawName_iff ((narrow_wide _).append (by intro c hc; simp at hc; subst hc; decide))).2 ⟨_, hu, rfl⟩
  have htk : ∀ (u r : Str), taken (u ++ '"' :: r) r = u ++ ['"'] := by
    intro u r
    have : u ++ '"' :: r = (u ++ ['"']) ++ r := by simp
    rw [this, taken_append]
  cases h with
  | known v n s w1 w2 u t hin hst hut hw1 hw2 hv hd ht =>
    obtain ⟨x, hx, rfl⟩ := name hst hut
    have e := utf8Text_iff.1 ht
    subst e
    have h1 := (skip_complete_aux ((w2 ++ (wide u ++ r)).length + 1)).1 w2 (wide u) r hw2
      (skipped_value hv) (by simp only [List.length_append]; omega) hr
    rw [List.append_assoc] at h1
    simp only [List.cons_append, List.append_assoc, List.nil_append]
    rw [skipWs_cons (by decide)]
    simp only [skipStr_complete (skipped_chars hx), htk, hraw hx, skipWs_append hw1]
    rw [skipWs_cons (by decide)]
    simp only [h1, hin, if_true]
    have h2 : taken (w2 ++ (wide u ++ r)) r = w2 ++ wide u := by
      rw [← List.append_assoc, taken_append]
    have h3 : parseSlice (unoctets (w2 ++ wide u)) = some v :=
      (parseSlice_unoctets ((narrow_ws hw2).append (narrow_wide u))).2
        ⟨w2 ++ u, by rw [wide_append, wide_ws hw2], ⟨w2, u, [], hw2, hv, by simp [Ws], by simp⟩, hd⟩
    rw [h2, h3, Option.map_some]
  | other n s w1 w2 t hin hst hut hw1 hw2 ht =>
    obtain ⟨x, hx, rfl⟩ := name hst hut
    have h1 := (skip_complete_aux ((w2 ++ (t ++ r)).length + 1)).1 w2 t r hw2
      ht (by simp only [List.length_append]; omega) hr
    rw [List.append_assoc] at h1
    simp only [List.cons_append, List.append_assoc, List.nil_append]
    rw [skipWs_cons (by decide)]
    simp only [skipStr_complete (skipped_chars hx), htk, hraw hx, skipWs_append hw1]
    rw [skipWs_cons (by decide)]
    simp only [h1, hin, if_false]

theorem looseMembers_sound {known : List Str} (f : Nat) : ∀ {s r : Str} {kvs : List (Str × Json)},
    Narrow s → looseMembers known f s = some (kvs, r) →
    ∃ t, LooseMembers known kvs t ∧ s = t ++ r := by
  induction f with
  | zero => intro s r kvs _ h; rw [looseMembers] at h; cases h
  | succ f ih =>
    intro s r kvs hn h
    obtain ⟨w, hw, hs, -⟩ := skipWs_sound s
    rw [looseMembers] at h
    split at h
    · rename_i heq; cases h; rw [heq] at hs; subst hs; exact ⟨_, .close w hw, by simp⟩
    · rename_i heq
      rw [heq] at hs; subst hs
      split at h
      · cases h
      rename_i kv r' hx
      simp only [Option.map_eq_some_iff] at h
      obtain ⟨⟨kvs', r''⟩, hm, e⟩ := h
      cases e
      have hn1 := hn.of_append.2.of_cons
      obtain ⟨w1, t1, hw1, ht1, rfl⟩ := looseMember_sound (k := kv.1) (v := kv.2) hn1 hx
      obtain ⟨t2, ht2, rfl⟩ := ih hn1.of_append.2 hm
      exact ⟨_, .more _ _ _ _ _ _ _ hw hw1 ht1 ht2, by simp⟩
    · cases h

theorem looseMembers_ends {known : List Str} {kvs : List (Str × Json)} {t : Str}
    (h : LooseMembers known kvs t) (r : Str) : Ends (t ++ r) := by
  cases h with
  | close w hw => rw [List.append_assoc]; exact ws_ends hw (by decide)
  | more k v kvs w w' s t hw => rw [List.append_assoc, List.cons_append]; exact ws_ends hw (by decide)

theorem looseMembers_complete {known : List Str} {kvs : List (Str × Json)} {t : Str}
    (h : LooseMembers known kvs t) : ∀ (f : Nat) (r : Str), t.length ≤ f →
    looseMembers known f (t ++ r) = some (kvs, r) := by
  induction h with
  | close w hw =>
    intro f r hf
    obtain ⟨f, rfl⟩ : ∃ g, f = g + 1 := ⟨f - 1, by simp at hf; omega⟩
    rw [looseMembers, List.append_assoc, skipWs_append hw]
    have : skipWs (['}'] ++ r) = '}' :: r := skipWs_cons (by decide)
    rw [this]; rfl
  | more k v kvs w w' s t hw hw' hm hms ih =>
    intro f r hf
    simp only [List.length_cons, List.length_append] at hf
    obtain ⟨f, rfl⟩ : ∃ g, f = g + 1 := ⟨f - 1, by omega⟩
    have h1 := looseMember_complete (r := t ++ r) hw' hm (looseMembers_ends hms r)
    have h2 := ih f r (by omega)
    rw [looseMembers, List.append_assoc, skipWs_append hw, List.cons_append, skipWs_cons (by decide)]
    simp only [List.append_assoc] at h1 ⊢
    simp only [h1, h2, Option.map_some]

theorem looseMember_cons {known : List Str} {k : Str} {v : Json} {t : Str}
    (h : LooseMember known k v t) : ∃ t', t = '"' :: t' := by
  cases h with
  | known v n s w w' u t _ hs hu =>
    obtain ⟨x, -, rfl⟩ := hs
    rw [utf8Text_iff.1 hu, wide_quoted]; exact ⟨_, rfl⟩
  | other n s w w' t _ hs hu =>
    obtain ⟨x, -, rfl⟩ := hs
    rw [utf8Text_iff.1 hu, wide_quoted]; exact ⟨_, rfl⟩

theorem looseObject_iff {known : List Str} {s r : Str} {kvs : List (Str × Json)} (hn : Narrow s) :
    looseObject known s = some (kvs, r) ↔ ∃ t, LooseObject known kvs ('{' :: t) ∧ s = t ++ r := by
  unfold looseObject
  constructor
  · intro h
    split at h
    · rename_i r' heq
      cases h
      obtain ⟨w, hw, hs, -⟩ := skipWs_sound s
      rw [heq] at hs; subst hs
      exact ⟨_, .empty w hw, by simp⟩
    · split at h
      · cases h
      rename_i kv r' hx
      simp only [Option.map_eq_some_iff] at h
      obtain ⟨⟨kvs', r''⟩, hm, e⟩ := h
      cases e
      obtain ⟨w1, t1, hw1, ht1, rfl⟩ := looseMember_sound (k := kv.1) (v := kv.2) hn hx
      obtain ⟨t2, ht2, rfl⟩ := looseMembers_sound _ hn.of_append.2 hm
      exact ⟨_, .members _ _ _ _ _ _ hw1 ht1 ht2, by simp⟩
  · rintro ⟨t, h, rfl⟩
    generalize e : '{' :: t = u at h
    cases h with
    | empty w hw =>
      cases e
      have : skipWs (w ++ ['}'] ++ r) = '}' :: r := by
        rw [List.append_assoc, skipWs_append hw]; exact skipWs_cons (by decide)
      rw [this]; rfl
    | members k v kvs w s t' hw hm hms =>
      cases e
      have h1 := looseMember_complete (r := t' ++ r) hw hm (looseMembers_ends hms r)
      have h2 := looseMembers_complete hms ((t' ++ r).length + 1) r (by simp only [List.length_append]; omega)
      obtain ⟨t'', rfl⟩ := looseMember_cons hm
      have hs : skipWs (w ++ '"' :: t'' ++ t' ++ r) = '"' :: (t'' ++ (t' ++ r)) := by
        rw [List.append_assoc, List.append_assoc, skipWs_append hw]; exact skipWs_cons (by decide)
      rw [hs]
      simp only [List.append_assoc] at h1 h2 ⊢
      simp only [h1, h2, Option.map_some]
      rfl

theorem looseObject_cons {known : List Str} {kvs : List (Str × Json)} {t : Str}
    (h : LooseObject known kvs t) : ∃ t', t = '{' :: t' := by
  cases h <;> exact ⟨_, rfl⟩

/-- A document that starts with an opening brace is an object, and the other way round. -/
theorem parseSlice_obj {b : Bytes} {j : Json} (h : parseSlice b = some j) :
    (∃ kvs, j = .obj kvs) ↔ ∃ r, skipWs (octets b) = '{' :: r := by
  obtain ⟨s, hu, ⟨w, t, w', hw, ht, hw', rfl⟩, -⟩ := (C65_bytes b j).1 h
  have e : octets b = wide (w ++ t ++ w') := by
    rw [wide, (C66_encode _ b).2 hu]
  rw [e, wide_append, wide_append, wide_ws hw, List.append_assoc, skipWs_append hw]
  cases ht with
  | null => simp [skipWs, isWs, show wide (str! "null") = str! "null" from rfl]
  | true => simp [skipWs, isWs, show wide (str! "true") = str! "true" from rfl]
  | false => simp [skipWs, isWs, show wide (str! "false") = str! "false" from rfl]
  | integer n s hn =>
    rw [wide_eq_self (number_ascii hn)]
    rcases number_complete hn (r := []) (by intro c hc; simp at hc) with ⟨t', rfl, -⟩ | ⟨c, t', rfl, hd, -⟩
    · rw [List.cons_append, skipWs_cons (by decide)]
      simp
    · obtain ⟨h1, -⟩ := isDigit_facts hd
      rw [List.cons_append, skipWs_cons h1]
      have hc : c ≠ '{' := by rintro rfl; exact absurd hd (by decide)
      simp [hc]
  | float d s hn _ =>
    rw [wide_eq_self (number_ascii hn)]
    rcases number_complete hn (r := []) (by intro c hc; simp at hc) with ⟨t', rfl, -⟩ | ⟨c, t', rfl, hd, -⟩
    · rw [List.cons_append, skipWs_cons (by decide)]
      simp
    · obtain ⟨h1, -⟩ := isDigit_facts hd
      rw [List.cons_append, skipWs_cons h1]
      have hc : c ≠ '{' := by rintro rfl; exact absurd hd (by decide)
      simp [hc]
  | string v s hs =>
    obtain ⟨u, -, rfl⟩ := hs
    rw [wide_quoted, List.cons_append, skipWs_cons (by decide)]
    simp
  | emptyArray => rw [wide_ascii (by decide), List.cons_append, skipWs_cons (by decide)]; simp
  | array => rw [wide_ascii (by decide), List.cons_append, skipWs_cons (by decide)]; simp
  | emptyObject => rw [wide_ascii (by decide), List.cons_append, skipWs_cons (by decide)]; simp
  | object => rw [wide_ascii (by decide), List.cons_append, skipWs_cons (by decide)]; simp

theorem looseSlice_iff {known : List Str} {b : Bytes} {j : Json} :
    looseSlice known b = some j ↔ LooseText known j b := by
  unfold looseSlice
  constructor
  · intro h
    split at h
    · rename_i r heq
      obtain ⟨w, hw, hs, -⟩ := skipWs_sound (octets b)
      rw [heq] at hs
      have hn := narrow_octets b
      rw [hs] at hn
      split at h
      · rename_i kvs r' ho
        split at h
        · rename_i hr
          cases h
          obtain ⟨t, ht, rfl⟩ := (looseObject_iff hn.of_append.2.of_cons).1 ho
          obtain ⟨w', hw', hs', -⟩ := skipWs_sound r'
          rw [hr, List.append_nil] at hs'
          rw [← hs'] at hw'
          exact .object _ w _ r' _ hw ht hw' (octets_iff.2 (by rw [hs]; simp))
        · cases h
      · cases h
    · rename_i hne
      obtain ⟨s, hu, ht, hd⟩ := (C65_bytes b j).1 h
      refine .other j s b ?_ ht hd hu
      rintro kvs rfl
      obtain ⟨r, hr⟩ := (parseSlice_obj h).1 ⟨kvs, rfl⟩
      exact hne r hr
  · intro h
    cases h with
    | object kvs w t w' _ hw ht hw' ho =>
      obtain ⟨t', rfl⟩ := looseObject_cons ht
      have hs := octets_iff.1 ho
      have h1 : skipWs (octets b) = '{' :: (t' ++ w') := by
        rw [← hs, List.append_assoc, skipWs_append hw]; exact skipWs_cons (by decide)
      rw [h1]
      have hn : Narrow (t' ++ w') := by
        have := narrow_octets b
        rw [← hs, List.append_assoc] at this
        exact this.of_append.2.of_cons
      have h2 := (looseObject_iff (known := known) (kvs := kvs) (r := w') hn).2 ⟨t', ht, rfl⟩
      have h3 : skipWs w' = [] := by
        have := skipWs_append (s := []) hw'
        rw [List.append_nil] at this
        exact this
      simp only [h2, h3, if_true]
    | other _ s _ hne ht hd hu =>
      have hp := (C65_bytes b j).2 ⟨s, hu, ht, hd⟩
      split
      · rename_i r heq
        obtain ⟨kvs, rfl⟩ := (parseSlice_obj hp).2 ⟨r, heq⟩
        exact absurd rfl (hne kvs)
      · exact hp

/-! ### Documents in which nothing is skipped -/

/-- The values of unknown members are forgotten. -/
def forget (known : List Str) : Json → Json
  | .obj kvs => .obj (kvs.map fun p => (p.1, if p.1 ∈ known then p.2 else .null))
  | j => j

theorem loose_member {known : List Str} {k : Str} {v : Json} {t : Str} (h : MemberText k v t)
    (hd : depth v ≤ 127) : LooseMember known k (if k ∈ known then v else .null) (wide t) := by
  cases h with
  | mk k v s w w' t hs hw hw' ht =>
    rw [wide_append, wide_append, wide_ascii (by decide), wide_append, wide_ws hw, wide_ws hw']
    split
    · rename_i hin
      exact .known _ _ _ _ _ _ _ _ hin hs (utf8Text_iff.2 rfl) hw hw' ht hd (utf8Text_iff.2 rfl)
    · rename_i hin
      exact .other _ _ _ _ _ _ hin hs (utf8Text_iff.2 rfl) hw hw' (skipped_value ht)

theorem loose_members {known : List Str} : ∀ (kvs : List (Str × Json)) {t : Str}, MembersText kvs t →
    depthMembers kvs ≤ 127 →
    LooseMembers known (kvs.map fun p => (p.1, if p.1 ∈ known then p.2 else .null)) (wide t) := by
  intro kvs
  induction kvs with
  | nil =>
    intro t h _
    cases h with
    | close w hw => rw [wide_append, wide_ws hw]; exact .close w hw
  | cons p kvs ih =>
    intro t h hd
    cases h with
    | more k v kvs w w' s t hw hw' hs ht =>
      rw [depthMembers] at hd
      rw [wide_append, wide_ascii (by decide), wide_append, wide_append, wide_ws hw, wide_ws hw']
      exact .more _ _ _ _ _ _ _ hw hw' (loose_member hs (show depth v ≤ 127 by omega)) (ih ht (by omega))

/-- What can be read strictly is read loosely with the same known members. -/
theorem looseSlice_of_parse {known : List Str} {b : Bytes} {j : Json} (h : parseSlice b = some j) :
    looseSlice known b = some (forget known j) := by
  rw [looseSlice_iff]
  obtain ⟨s, hu, ht, hd⟩ := (C65_bytes b j).1 h
  by_cases hj : ∃ kvs, j = .obj kvs
  · obtain ⟨kvs, rfl⟩ := hj
    obtain ⟨w, t, w', hw, ht, hw', rfl⟩ := ht
    refine .object _ w (wide t) w' _ hw ?_ hw' (octets_iff.2 ?_)
    · rw [depth] at hd
      cases ht with
      | emptyObject w hw => rw [wide_ascii (by decide), wide_append, wide_ws hw]; exact .empty w hw
      | object k v kvs w s t hw hs ht =>
        rw [depthMembers] at hd
        rw [wide_ascii (by decide), wide_append, wide_append, wide_ws hw]
        exact .members _ _ _ _ _ _ hw (loose_member hs (show depth v ≤ 127 by omega)) (loose_members kvs ht (by omega))
    · rw [← (C66_encode _ b).2 hu]
      change _ = wide _
      rw [wide_append, wide_append, wide_ws hw, wide_ws hw']
  · have e : forget known j = j := by
      cases j with
      | obj kvs => exact absurd ⟨kvs, rfl⟩ hj
      | _ => rfl
    rw [e]
    exact .other j s b (fun kvs h => hj ⟨kvs, h⟩) ht hd hu

end Json

namespace Serde

theorem occurrences_forget {known : List Str} {k : Str} (hk : k ∈ known) (kvs : List (Str × Json)) :
    occurrences k (kvs.map fun p => (p.1, if p.1 ∈ known then p.2 else .null)) = occurrences k kvs := by
  induction kvs with
  | nil => rfl
  | cons p kvs ih =>
    obtain ⟨k', v⟩ := p
    unfold occurrences at ih ⊢
    by_cases e : k' = k
    · subst e
      simp only [List.map_cons, decide_true, List.filter_cons_of_pos, hk, if_true, ih]
    · simp only [List.map_cons, e, decide_false, Bool.false_eq_true, not_false_eq_true,
        List.filter_cons_of_neg, ih]

theorem fields_forget {known : List Str} (kvs : List (Str × Json)) : ∀ {ks : List Str}, (∀ k ∈ ks, k ∈ known) →
    fields ks (kvs.map fun p => (p.1, if p.1 ∈ known then p.2 else .null)) = fields ks kvs := by
  intro ks h
  induction ks with
  | nil => rfl
  | cons k ks ih =>
    simp only [fields, field, occurrences_forget (h k (by simp)),
      ih fun k hk => h k (List.mem_cons_of_mem _ hk)]

theorem struct_forget (names : List Str) (j : Json) : struct names (Json.forget names j) = struct names j := by
  cases j with
  | obj kvs => exact fields_forget kvs fun _ h => h
  | _ => rfl

end Serde

theorem ProofJwtBody.de_forget (x : Ext) (j : Json) : ProofJwtBody.de x (Json.forget [str! "iss", str! "aud",
    str! "sub", str! "iat", str! "nonce", str! "nbf", str! "exp"] j) = ProofJwtBody.de x j := by
  simp only [ProofJwtBody.de, Serde.struct_forget]

/-- A body in which every unknown member is a JSON value too is read as it stands. -/
theorem ProofJwtBody.fromSlice_of_parse (x : Ext) {b : Bytes} {j : Json} (h : Json.parseSlice b = some j) :
    ProofJwtBody.fromSlice x b = ProofJwtBody.de x j := by
  rw [fromSlice, Json.looseSlice_of_parse h, Option.bind_some, de_forget]

/-- A body is read from its registered claims alone. -/
theorem ProofJwtBody.fromSlice_of_loose (x : Ext) {b : Bytes} {j : Json}
    (h : Spec.LooseText Spec.claimNames j b) : ProofJwtBody.fromSlice x b = ProofJwtBody.de x j := by
  have : Json.looseSlice Spec.claimNames b = some j := Json.looseSlice_iff.2 h
  unfold Spec.claimNames at this
  rw [fromSlice, this, Option.bind_some]

theorem ProofJwtBody.fromSlice_iff {x : Ext} {b : Bytes} {body : ProofJwtBody} :
    ProofJwtBody.fromSlice x b = some body ↔
      ∃ j, Spec.LooseText Spec.claimNames j b ∧ ProofJwtBody.de x j = some body := by
  constructor
  · intro h
    obtain ⟨j, h1, h2⟩ := Option.bind_eq_some_iff.1 h
    exact ⟨j, Json.looseSlice_iff.1 h1, h2⟩
  · rintro ⟨j, h1, h2⟩
    rw [fromSlice_of_loose x h1, h2]

end Oid4vci
