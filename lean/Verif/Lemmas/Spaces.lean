import Verif.Spec.Spaces
import Verif.Props.Asked

/-! Leaving out the white space between tokens. -/

namespace Oid4vci
namespace Json

open Spec

/-- In front of any text, `t` becomes `t'`. -/
def Compacts (t t' : Str) : Prop := ∀ r, dense false (t ++ r) = t' ++ dense false r

theorem Compacts.append {a a' b b' : Str} (ha : Compacts a a') (hb : Compacts b b') : Compacts (a ++ b) (a' ++ b') := by
  intro r
  rw [List.append_assoc, ha, hb, List.append_assoc]

theorem compacts_ws {w : Str} (h : Ws w) : Compacts w [] := by
  intro r
  induction w with
  | nil => rfl
  | cons c w ih =>
    rw [List.cons_append, dense, if_pos (h c (by simp)), ih fun c hc => h c (by simp [hc])]

/-- Neither white space nor a quote. -/
def Solid (c : Char) : Prop := c ∉ [' ', '\t', '\n', '\r'] ∧ c ≠ '"'

instance (c : Char) : Decidable (Solid c) := by unfold Solid; infer_instance

theorem compacts_cons {c : Char} (h : Solid c) {t t' : Str} (ht : Compacts t t') : Compacts (c :: t) (c :: t') := by
  intro r
  rw [List.cons_append, dense, if_neg h.1, beq_false_of_ne h.2, ht, List.cons_append]

theorem compacts_solid {t : Str} (h : ∀ c ∈ t, Solid c) : Compacts t t := by
  induction t with
  | nil => intro r; rfl
  | cons c t ih => exact compacts_cons (h c (by simp)) (ih fun c hc => h c (by simp [hc]))

theorem Compacts.eq {t t' : Str} (h : Compacts t t') : dense false t = t' := by
  have := h []
  rwa [List.append_nil, dense, List.append_nil] at this

theorem digit_solid {c : Char} (h : isDigit c = true) : Solid c := by
  have h1 : 48 ≤ c.toNat := by
    simp only [isDigit, Bool.and_eq_true, decide_eq_true_eq] at h
    exact h.1
  refine ⟨?_, ?_⟩
  · intro hc
    simp only [List.mem_cons, List.not_mem_nil, or_false] at hc
    rcases hc with rfl | rfl | rfl | rfl <;> exact absurd h1 (by decide)
  · rintro rfl; exact absurd h1 (by decide)

theorem compacts_digits {ds : List Nat} {s : Str} (h : DigitsText ds s) : Compacts s s :=
  compacts_solid fun c hc => digit_solid ((digitsText_iff.1 h).2.1 c hc)

theorem compacts_int {n : Nat} {s : Str} (h : IntText n s) : Compacts s s :=
  compacts_solid fun c hc => digit_solid ((intText_iff.1 h).2.1 c hc)

theorem compacts_number {j : Json.Lexical} {s : Str} (h : NumberText j s) : Compacts s s := by
  cases h with
  | nonneg n _ hi => exact compacts_int hi
  | negative n s hi => exact compacts_cons (by decide) (compacts_int hi)
  | otherwise neg n s f e hi hf he =>
    refine .append (.append (.append ?_ (compacts_int hi)) ?_) ?_
    · exact compacts_solid (by cases neg <;> decide)
    · rcases hf with rfl | ⟨ds, t, hd, rfl⟩
      · exact compacts_solid (by simp)
      · exact compacts_cons (by decide) (compacts_digits hd)
    · rcases he with rfl | ⟨ds, t, hd, x, hx, sign, hs, rfl⟩
      · exact compacts_solid (by simp)
      · simp only [List.mem_cons, List.not_mem_nil, or_false] at hx hs
        refine compacts_cons (by rcases hx with rfl | rfl <;> decide) (.append ?_ (compacts_digits hd))
        exact compacts_solid (by rcases hs with rfl | rfl | rfl <;> decide)

theorem dense_inside {c : Char} (h1 : c ≠ '"') (h2 : c ≠ '\\') (r : Str) :
    dense true (c :: r) = c :: dense true r := by
  rw [dense]
  · rw [bne_iff_ne.2 h1]
  · rintro c' s rfl; exact absurd rfl h2

theorem hexVal_inside {c : Char} {n : Nat} (h : hexVal c = some n) : c ≠ '"' ∧ c ≠ '\\' := by
  constructor <;> (rintro rfl; exact absurd h (by decide +revert))

theorem dense_chars {t : Str} (h : SkippedChars t) (r : Str) :
    dense true (t ++ '"' :: r) = t ++ '"' :: dense false r := by
  induction h with
  | nil => rw [List.nil_append, dense] <;> simp
  | plain c t _ h1 h2 _ ih => rw [List.cons_append, dense_inside h1 h2, ih, List.cons_append]
  | escape e c t _ _ ih => simp only [List.cons_append, dense, ih]
  | unicode n h t hh _ ih =>
    obtain ⟨a, b, c, d, rfl, hx⟩ := hex4_iff.1 hh
    simp only [hex4, Option.bind_eq_bind, Option.bind_eq_some_iff] at hx
    obtain ⟨a', ha, b', hb, c', hc, d', hd, -⟩ := hx
    obtain ⟨a1, a2⟩ := hexVal_inside ha
    obtain ⟨b1, b2⟩ := hexVal_inside hb
    obtain ⟨c1, c2⟩ := hexVal_inside hc
    obtain ⟨d1, d2⟩ := hexVal_inside hd
    simp only [List.cons_append, List.nil_append]
    rw [dense, dense_inside a1 a2, dense_inside b1 b2, dense_inside c1 c2, dense_inside d1 d2, ih]

theorem compacts_string {s : Str} (h : SkippedString s) : Compacts s s := by
  obtain ⟨t, ht, rfl⟩ := h
  intro r
  rw [List.cons_append, dense, if_neg (by decide)]
  simp only [beq_self_eq_true, List.append_assoc, List.cons_append, List.nil_append]
  rw [dense_chars ht]

/-! ### Values that are passed over -/

theorem compacts_close {w : Str} (hw : Ws w) {c : Char} (hc : Solid c) : Compacts (w ++ [c]) [c] := by
  have := (compacts_ws hw).append (compacts_cons hc (compacts_solid (t := []) (by simp)))
  simpa using this

theorem compacts_open {w s s' t t' : Str} {c : Char} (hc : Solid c) (hw : Ws w) (hs : Compacts s s')
    (ht : Compacts t t') : Compacts (c :: (w ++ s ++ t)) (c :: ([] ++ s' ++ t')) :=
  compacts_cons hc (((compacts_ws hw).append hs).append ht)

theorem compacts_more {w w' s s' t t' : Str} {c : Char} (hc : Solid c) (hw : Ws w) (hw' : Ws w') (hs : Compacts s s')
    (ht : Compacts t t') : Compacts (w ++ c :: (w' ++ s ++ t)) ([] ++ c :: ([] ++ s' ++ t')) :=
  (compacts_ws hw).append (compacts_open hc hw' hs ht)

theorem compacts_member {s w w' t t' : Str} (hs : SkippedString s) (hw : Ws w) (hw' : Ws w') (ht : Compacts t t') :
    Compacts (s ++ w ++ ':' :: (w' ++ t)) (s ++ [] ++ ':' :: ([] ++ t')) :=
  ((compacts_string hs).append (compacts_ws hw)).append (compacts_cons (by decide) ((compacts_ws hw').append ht))

theorem ws_nil : Ws [] := by intro c hc; cases hc

mutual
theorem compacts_value : ∀ {t : Str}, SkippedValue t → ∃ t', Compacts t t' ∧ SkippedValue t'
  | _, .null => ⟨_, compacts_solid (by decide), .null⟩
  | _, .true => ⟨_, compacts_solid (by decide), .true⟩
  | _, .false => ⟨_, compacts_solid (by decide), .false⟩
  | _, .number j s h => ⟨_, compacts_number h, .number j s h⟩
  | _, .string s h => ⟨_, compacts_string h, .string s h⟩
  | _, .emptyArray w hw => ⟨_, compacts_cons (by decide) (compacts_close hw (by decide)), .emptyArray [] ws_nil⟩
  | _, .array w s t hw hs ht => by
    obtain ⟨s', h1, h2⟩ := compacts_value hs
    obtain ⟨t', h3, h4⟩ := compacts_elements ht
    exact ⟨_, compacts_open (by decide) hw h1 h3, .array [] s' t' ws_nil h2 h4⟩
  | _, .emptyObject w hw => ⟨_, compacts_cons (by decide) (compacts_close hw (by decide)), .emptyObject [] ws_nil⟩
  | _, .object w s t hw hs ht => by
    obtain ⟨s', h1, h2⟩ := compacts_skippedMember hs
    obtain ⟨t', h3, h4⟩ := compacts_members ht
    exact ⟨_, compacts_open (by decide) hw h1 h3, .object [] s' t' ws_nil h2 h4⟩
theorem compacts_elements : ∀ {t : Str}, SkippedElements t → ∃ t', Compacts t t' ∧ SkippedElements t'
  | _, .close w hw => ⟨_, compacts_close hw (by decide), .close [] ws_nil⟩
  | _, .more w w' s t hw hw' hs ht => by
    obtain ⟨s', h1, h2⟩ := compacts_value hs
    obtain ⟨t', h3, h4⟩ := compacts_elements ht
    exact ⟨_, compacts_more (by decide) hw hw' h1 h3, .more [] [] s' t' ws_nil ws_nil h2 h4⟩
theorem compacts_skippedMember : ∀ {t : Str}, SkippedMember t → ∃ t', Compacts t t' ∧ SkippedMember t'
  | _, .mk s w w' t hs hw hw' ht => by
    obtain ⟨t', h1, h2⟩ := compacts_value ht
    exact ⟨_, compacts_member hs hw hw' h1, .mk s [] [] t' hs ws_nil ws_nil h2⟩
theorem compacts_members : ∀ {t : Str}, SkippedMembers t → ∃ t', Compacts t t' ∧ SkippedMembers t'
  | _, .close w hw => ⟨_, compacts_close hw (by decide), .close [] ws_nil⟩
  | _, .more w w' s t hw hw' hs ht => by
    obtain ⟨s', h1, h2⟩ := compacts_skippedMember hs
    obtain ⟨t', h3, h4⟩ := compacts_members ht
    exact ⟨_, compacts_more (by decide) hw hw' h1 h3, .more [] [] s' t' ws_nil ws_nil h2 h4⟩
end

/-! ### Values that are read -/

theorem compacts_leaf {j : Json} (hl : Leaf j) {t : Str} (h : ValueText j t) : Compacts t t := by
  cases h with
  | null => exact compacts_solid (by decide)
  | true => exact compacts_solid (by decide)
  | false => exact compacts_solid (by decide)
  | integer _ _ h => exact compacts_number h
  | float _ _ h => exact compacts_number h
  | string _ _ h => exact compacts_string (skippable_string h)
  | _ => exact hl.elim

mutual
theorem compacts_seen : ∀ {σ : Shape} {j : Json} {t : Str}, SeenValue σ j t → ∃ t', Compacts t t' ∧ SeenValue σ j t'
  | _, _, _, .leaf σ j s hl h => ⟨_, compacts_leaf hl h, .leaf σ j s hl h⟩
  | _, _, _, .emptyArray σ w hw =>
    ⟨_, compacts_cons (by decide) (compacts_close hw (by decide)), .emptyArray σ [] ws_nil⟩
  | _, _, _, .array σ τ x xs w s t hi hw hs ht => by
    obtain ⟨s', h1, h2⟩ := compacts_seen hs
    obtain ⟨t', h3, h4⟩ := compacts_seenElements ht
    exact ⟨_, compacts_open (by decide) hw h1 h3, .array σ τ x xs [] s' t' hi ws_nil h2 h4⟩
  | _, _, _, .emptyObject σ w hw =>
    ⟨_, compacts_cons (by decide) (compacts_close hw (by decide)), .emptyObject σ [] ws_nil⟩
  | _, _, _, .object σ k v kvs w s t hw hs ht => by
    obtain ⟨s', h1, h2⟩ := compacts_seenMember hs
    obtain ⟨t', h3, h4⟩ := compacts_seenMembers ht
    exact ⟨_, compacts_open (by decide) hw h1 h3, .object σ k v kvs [] s' t' ws_nil h2 h4⟩
theorem compacts_seenElements : ∀ {σ : Shape} {i : Nat} {xs : List Json} {t : Str}, SeenElements σ i xs t →
    ∃ t', Compacts t t' ∧ SeenElements σ i xs t'
  | _, _, _, _, .close σ i w hw => ⟨_, compacts_close hw (by decide), .close σ i [] ws_nil⟩
  | _, _, _, _, .more σ τ i x xs w w' s t hi hw hw' hs ht => by
    obtain ⟨s', h1, h2⟩ := compacts_seen hs
    obtain ⟨t', h3, h4⟩ := compacts_seenElements ht
    exact ⟨_, compacts_more (by decide) hw hw' h1 h3, .more σ τ i x xs [] [] s' t' hi ws_nil ws_nil h2 h4⟩
theorem compacts_seenMember : ∀ {σ : Shape} {k : Str} {v : Json} {t : Str}, SeenMember σ k v t →
    ∃ t', Compacts t t' ∧ SeenMember σ k v t'
  | _, _, _, _, .read σ τ k v s w w' t ha hs hw hw' ht => by
    obtain ⟨t', h1, h2⟩ := compacts_seen ht
    exact ⟨_, compacts_member (skippable_string hs) hw hw' h1, .read σ τ k v s [] [] t' ha hs ws_nil ws_nil h2⟩
  | _, _, _, _, .skipped σ k s w w' t ha hs hw hw' ht => by
    obtain ⟨t', h1, h2⟩ := compacts_value ht
    exact ⟨_, compacts_member (skippable_string hs) hw hw' h1, .skipped σ k s [] [] t' ha hs ws_nil ws_nil h2⟩
theorem compacts_seenMembers : ∀ {σ : Shape} {kvs : List (Str × Json)} {t : Str}, SeenMembers σ kvs t →
    ∃ t', Compacts t t' ∧ SeenMembers σ kvs t'
  | _, _, _, .close σ w hw => ⟨_, compacts_close hw (by decide), .close σ [] ws_nil⟩
  | _, _, _, .more σ k v kvs w w' s t hw hw' hs ht => by
    obtain ⟨s', h1, h2⟩ := compacts_seenMember hs
    obtain ⟨t', h3, h4⟩ := compacts_seenMembers ht
    exact ⟨_, compacts_more (by decide) hw hw' h1 h3, .more σ k v kvs [] [] s' t' ws_nil ws_nil h2 h4⟩
end

/-! ### And back -/

theorem front {w w' u u' : Str} {c c' : Char} (hw : Ws w) (hw' : Ws w') (hc : isWs c = false) (hc' : isWs c' = false)
    (e : w ++ c :: u = w' ++ c' :: u') : w = w' ∧ c = c' ∧ u = u' := by
  have s1 := skipWs_append (s := c :: u) hw
  rw [e, skipWs_append hw', skipWs_cons hc, skipWs_cons hc'] at s1
  cases s1
  exact ⟨List.append_cancel_right e, rfl, rfl⟩

/-- A value ends in one place. -/
theorem value_split {w t r w' t' r' : Str} (hw : Ws w) (ht : SkippedValue t) (hr : Ends r) (hw' : Ws w')
    (ht' : SkippedValue t') (hr' : Ends r') (e : w ++ t ++ r = w' ++ t' ++ r') : t = t' ∧ r = r' := by
  have h1 := (skip_complete_aux (t.length + t'.length)).1 w t r hw ht (by omega) hr
  have h2 := (skip_complete_aux (t.length + t'.length)).1 w' t' r' hw' ht' (by omega) hr'
  rw [e, h2] at h1
  cases h1
  have e' : w ++ t = w' ++ t' := List.append_cancel_right e
  obtain ⟨c, u, rfl, hc, -⟩ := skippedValue_cons ht
  obtain ⟨c', u', rfl, hc', -⟩ := skippedValue_cons ht'
  obtain ⟨-, rfl, rfl⟩ := front hw hw' hc hc' e'
  exact ⟨rfl, rfl⟩

/-- So does a member. -/
theorem member_split {w t r w' t' r' : Str} (hw : Ws w) (ht : SkippedMember t) (hr : Ends r) (hw' : Ws w')
    (ht' : SkippedMember t') (hr' : Ends r') (e : w ++ t ++ r = w' ++ t' ++ r') : t = t' ∧ r = r' := by
  have h1 := (skip_complete_aux (t.length + t'.length)).2.2.1 w t r hw ht (by omega) hr
  have h2 := (skip_complete_aux (t.length + t'.length)).2.2.1 w' t' r' hw' ht' (by omega) hr'
  rw [e, h2] at h1
  cases h1
  have e' : w ++ t = w' ++ t' := List.append_cancel_right e
  obtain ⟨u, rfl⟩ := skippedMember_cons ht
  obtain ⟨u', rfl⟩ := skippedMember_cons ht'
  obtain ⟨-, -, rfl⟩ := front hw hw' (by decide) (by decide) e'
  exact ⟨rfl, rfl⟩

theorem string_split {s s' r r' : Str} (hs : SkippedString s) (hs' : SkippedString s') (e : s ++ r = s' ++ r') :
    s = s' ∧ r = r' := by
  obtain ⟨a, ha, rfl⟩ := hs
  obtain ⟨a', ha', rfl⟩ := hs'
  have h1 := skipStr_complete ha r
  have h2 := skipStr_complete ha' r'
  simp only [List.cons_append, List.append_assoc, List.nil_append, List.cons.injEq, true_and] at e
  rw [e, h2] at h1
  cases h1
  exact ⟨by rw [List.append_cancel_right e], rfl⟩

theorem number_front {l : Lexical} {t : Str} (h : NumberText l t) : ∃ c u, t = c :: u ∧ c ≠ '[' ∧ c ≠ '{' := by
  rcases number_complete (r := []) h (by intro c hc; cases hc) with ⟨t', rfl, -⟩ | ⟨c, t', rfl, hd, -⟩
  · exact ⟨_, _, rfl, by decide, by decide⟩
  · exact ⟨_, _, rfl, by rintro rfl; exact absurd hd (by decide), by rintro rfl; exact absurd hd (by decide)⟩

theorem leaf_front {j : Json} (hl : Leaf j) {t : Str} (h : ValueText j t) : ∃ c u, t = c :: u ∧ c ≠ '[' ∧ c ≠ '{' := by
  cases h with
  | null => exact ⟨_, _, rfl, by decide, by decide⟩
  | true => exact ⟨_, _, rfl, by decide, by decide⟩
  | false => exact ⟨_, _, rfl, by decide, by decide⟩
  | integer _ _ h => exact number_front h
  | float _ _ h => exact number_front h
  | string _ _ h => obtain ⟨t, -, rfl⟩ := h; exact ⟨_, _, rfl, by decide, by decide⟩
  | _ => exact hl.elim

theorem seen_inv {σ : Shape} {j : Json} {u : Str} : SeenValue σ j u → (Leaf j ∧ ValueText j u) ∨
    (∃ w, Ws w ∧ j = .arr [] ∧ u = '[' :: (w ++ [']'])) ∨
    (∃ τ x xs w s t, Item σ 0 τ ∧ Ws w ∧ SeenValue τ x s ∧ SeenElements σ 1 xs t ∧ j = .arr (x :: xs) ∧
      u = '[' :: (w ++ s ++ t)) ∨
    (∃ w, Ws w ∧ j = .obj [] ∧ u = '{' :: (w ++ ['}'])) ∨
    ∃ k v kvs w s t, Ws w ∧ SeenMember σ k v s ∧ SeenMembers σ kvs t ∧ j = .obj ((k, v) :: kvs) ∧
      u = '{' :: (w ++ s ++ t)
  | .leaf _ _ _ hl hv => .inl ⟨hl, hv⟩
  | .emptyArray _ w hw => .inr (.inl ⟨w, hw, rfl, rfl⟩)
  | .array _ τ x xs w s t hi hw hs ht => .inr (.inr (.inl ⟨τ, x, xs, w, s, t, hi, hw, hs, ht, rfl, rfl⟩))
  | .emptyObject _ w hw => .inr (.inr (.inr (.inl ⟨w, hw, rfl, rfl⟩)))
  | .object _ k v kvs w s t hw hs ht => .inr (.inr (.inr (.inr ⟨k, v, kvs, w, s, t, hw, hs, ht, rfl, rfl⟩)))

theorem elements_inv {σ : Shape} {i : Nat} {xs : List Json} {u : Str} : SeenElements σ i xs u →
    (xs = [] ∧ ∃ w, Ws w ∧ u = w ++ [']']) ∨
    ∃ τ x xs' w w' s t, Item σ i τ ∧ Ws w ∧ Ws w' ∧ SeenValue τ x s ∧ SeenElements σ (i + 1) xs' t ∧ xs = x :: xs' ∧
      u = w ++ ',' :: (w' ++ s ++ t)
  | .close _ _ w hw => .inl ⟨rfl, w, hw, rfl⟩
  | .more _ τ _ x xs w w' s t hi hw hw' hs ht => .inr ⟨τ, x, xs, w, w', s, t, hi, hw, hw', hs, ht, rfl, rfl⟩

theorem member_inv {σ : Shape} {k : Str} {v : Json} {u : Str} : SeenMember σ k v u →
    ∃ s w w' t, StringText k s ∧ Ws w ∧ Ws w' ∧ u = s ++ w ++ ':' :: (w' ++ t) ∧
      ((∃ τ, Asks σ k τ ∧ SeenValue τ v t) ∨ (Ignores σ k ∧ SkippedValue t ∧ v = .null))
  | .read _ τ _ _ s w w' t ha hs hw hw' ht => ⟨s, w, w', t, hs, hw, hw', rfl, .inl ⟨τ, ha, ht⟩⟩
  | .skipped _ _ s w w' t ha hs hw hw' ht => ⟨s, w, w', t, hs, hw, hw', rfl, .inr ⟨ha, ht, rfl⟩⟩

theorem members_inv {σ : Shape} {kvs : List (Str × Json)} {u : Str} : SeenMembers σ kvs u →
    (kvs = [] ∧ ∃ w, Ws w ∧ u = w ++ ['}']) ∨
    ∃ k v kvs' w w' s t, Ws w ∧ Ws w' ∧ SeenMember σ k v s ∧ SeenMembers σ kvs' t ∧ kvs = (k, v) :: kvs' ∧
      u = w ++ ',' :: (w' ++ s ++ t)
  | .close _ w hw => .inl ⟨rfl, w, hw, rfl⟩
  | .more _ k v kvs w w' s t hw hw' hs ht => .inr ⟨k, v, kvs, w, w', s, t, hw, hw', hs, ht, rfl, rfl⟩

theorem seen_bracket {σ : Shape} {j : Json} {u : Str} (h : SeenValue σ j ('[' :: u)) :
    (∃ w, Ws w ∧ j = .arr [] ∧ u = w ++ [']']) ∨
    ∃ τ x xs w s t, Item σ 0 τ ∧ Ws w ∧ SeenValue τ x s ∧ SeenElements σ 1 xs t ∧ j = .arr (x :: xs) ∧
      u = w ++ s ++ t := by
  rcases seen_inv h with ⟨hl, hv⟩ | ⟨w, hw, rfl, e⟩ | ⟨τ, x, xs, w, s, t, hi, hw, hs, ht, rfl, e⟩ | ⟨w, hw, rfl, e⟩ |
    ⟨k, v, kvs, w, s, t, hw, hs, ht, rfl, e⟩
  · obtain ⟨c, u', e, h, -⟩ := leaf_front hl hv
    cases e; exact absurd rfl h
  · cases e; exact .inl ⟨w, hw, rfl, rfl⟩
  · cases e; exact .inr ⟨τ, x, xs, w, s, t, hi, hw, hs, ht, rfl, rfl⟩
  · cases e
  · cases e

theorem seen_brace {σ : Shape} {j : Json} {u : Str} (h : SeenValue σ j ('{' :: u)) :
    (∃ w, Ws w ∧ j = .obj [] ∧ u = w ++ ['}']) ∨
    ∃ k v kvs w s t, Ws w ∧ SeenMember σ k v s ∧ SeenMembers σ kvs t ∧ j = .obj ((k, v) :: kvs) ∧ u = w ++ s ++ t := by
  rcases seen_inv h with ⟨hl, hv⟩ | ⟨w, hw, rfl, e⟩ | ⟨τ, x, xs, w, s, t, hi, hw, hs, ht, rfl, e⟩ | ⟨w, hw, rfl, e⟩ |
    ⟨k, v, kvs, w, s, t, hw, hs, ht, rfl, e⟩
  · obtain ⟨c, u', e, -, h⟩ := leaf_front hl hv
    cases e; exact absurd rfl h
  · cases e
  · cases e
  · cases e; exact .inl ⟨w, hw, rfl, rfl⟩
  · cases e; exact .inr ⟨k, v, kvs, w, s, t, hw, hs, ht, rfl, rfl⟩

/-- No value or member begins like this. -/
theorem no_value {w s r u : Str} {c : Char} (hw : Ws w) (hs : SkippedValue s) (hc : c = ']' ∨ c = '}') :
    w ++ s ++ r ≠ c :: u := by
  intro e
  obtain ⟨c', u', rfl, h1, h2, h3⟩ := skippedValue_cons hs
  rw [List.append_assoc, List.cons_append] at e
  obtain ⟨-, rfl, -⟩ := front (w' := []) hw ws_nil h1 (by rcases hc with rfl | rfl <;> decide) e
  rcases hc with h | h
  · exact h2 h
  · exact h3 h

theorem no_member {w s r u : Str} {c : Char} (hw : Ws w) (hs : SkippedMember s) (hc : c = ']' ∨ c = '}') :
    w ++ s ++ r ≠ c :: u := by
  intro e
  obtain ⟨u', rfl⟩ := skippedMember_cons hs
  rw [List.append_assoc, List.cons_append] at e
  obtain ⟨-, rfl, -⟩ := front (w' := []) hw ws_nil (by decide) (by rcases hc with rfl | rfl <;> decide) e
  rcases hc with h | h <;> exact absurd h (by decide)

theorem no_close {w s r : Str} {c : Char} (hw : Ws w) (hs : (∃ c' u, s = c' :: u ∧ isWs c' = false ∧ c' ≠ c))
    (hc : isWs c = false) : s ++ r ≠ w ++ [c] := by
  rintro e
  obtain ⟨c', u, rfl, h1, h2⟩ := hs
  obtain ⟨-, h, -⟩ := front (w := []) ws_nil hw h1 hc e
  exact h2 h

mutual
theorem back_value : ∀ {t : Str}, SkippedValue t → ∀ {σ : Shape} {j : Json}, SeenValue σ j (dense false t) → SeenValue σ j t
  | _, .null, σ, j, h => by rwa [(compacts_solid (by decide)).eq] at h
  | _, .true, σ, j, h => by rwa [(compacts_solid (by decide)).eq] at h
  | _, .false, σ, j, h => by rwa [(compacts_solid (by decide)).eq] at h
  | _, .number _ s hn, σ, j, h => by rwa [(compacts_number hn).eq] at h
  | _, .string s hs, σ, j, h => by rwa [(compacts_string hs).eq] at h
  | _, .emptyArray w hw, σ, j, h => by
    rw [(compacts_cons (by decide) (compacts_close hw (by decide))).eq] at h
    rcases seen_bracket h with ⟨w', -, rfl, -⟩ | ⟨τ, x, xs, w', s, t, -, hw', hs, -, -, e⟩
    · exact .emptyArray σ w hw
    · exact absurd e.symm (no_value hw' (grammar_value hs) (.inl rfl))
  | _, .array w s t hw hs ht, σ, j, h => by
    obtain ⟨s', h1, h2⟩ := compacts_value hs
    obtain ⟨t', h3, h4⟩ := compacts_elements ht
    rw [(compacts_open (by decide) hw h1 h3).eq] at h
    rcases seen_bracket h with ⟨w', hw', -, e⟩ | ⟨τ, x, xs, w', s1, t1, hi, hw', hs1, ht1, rfl, e⟩
    · obtain ⟨c, u, rfl, c1, c2, -⟩ := skippedValue_cons h2
      exact absurd e (no_close hw' ⟨c, u, rfl, c1, c2⟩ (by decide))
    · have g := skippedElements_ends (grammar_elements ht1) []
      have g' := skippedElements_ends h4 []
      rw [List.append_nil] at g g'
      obtain ⟨rfl, rfl⟩ := value_split ws_nil h2 g' hw' (grammar_value hs1) g e
      rw [← h1.eq] at hs1
      rw [← h3.eq] at ht1
      exact .array σ τ x xs w s t hi hw (back_value hs hs1) (back_elements ht ht1)
  | _, .emptyObject w hw, σ, j, h => by
    rw [(compacts_cons (by decide) (compacts_close hw (by decide))).eq] at h
    rcases seen_brace h with ⟨w', -, rfl, -⟩ | ⟨k, v, kvs, w', s, t, hw', hs, -, -, e⟩
    · exact .emptyObject σ w hw
    · exact absurd e.symm (no_member hw' (grammar_member hs) (.inr rfl))
  | _, .object w s t hw hs ht, σ, j, h => by
    obtain ⟨s', h1, h2⟩ := compacts_skippedMember hs
    obtain ⟨t', h3, h4⟩ := compacts_members ht
    rw [(compacts_open (by decide) hw h1 h3).eq] at h
    rcases seen_brace h with ⟨w', hw', -, e⟩ | ⟨k, v, kvs, w', s1, t1, hw', hs1, ht1, rfl, e⟩
    · obtain ⟨u, rfl⟩ := skippedMember_cons h2
      exact absurd e (no_close hw' ⟨_, u, rfl, by decide, by decide⟩ (by decide))
    · have g := skippedMembers_ends (grammar_members ht1) []
      have g' := skippedMembers_ends h4 []
      rw [List.append_nil] at g g'
      obtain ⟨rfl, rfl⟩ := member_split ws_nil h2 g' hw' (grammar_member hs1) g e
      rw [← h1.eq] at hs1
      rw [← h3.eq] at ht1
      exact .object σ k v kvs w s t hw (back_member hs hs1) (back_members ht ht1)
theorem back_elements : ∀ {t : Str}, SkippedElements t → ∀ {σ : Shape} {i : Nat} {xs : List Json},
    SeenElements σ i xs (dense false t) → SeenElements σ i xs t
  | _, .close w hw, σ, i, xs, h => by
    rw [(compacts_close hw (by decide)).eq] at h
    rcases elements_inv h with ⟨rfl, w1, hw1, e⟩ | ⟨τ, x, xs, w1, w1', s1, t1, hi, hw1, hw1', hs1, ht1, rfl, e⟩
    · exact .close σ i w hw
    · obtain ⟨-, h, -⟩ := front (w := []) ws_nil hw1 (by decide) (by decide) e
      exact absurd h (by decide)
  | _, .more w w' s t hw hw' hs ht, σ, i, xs, h => by
    obtain ⟨s', h1, h2⟩ := compacts_value hs
    obtain ⟨t', h3, h4⟩ := compacts_elements ht
    rw [(compacts_more (by decide) hw hw' h1 h3).eq] at h
    rcases elements_inv h with ⟨rfl, w1, hw1, e⟩ | ⟨τ, x, xs, w1, w1', s1, t1, hi, hw1, hw1', hs1, ht1, rfl, e⟩
    · obtain ⟨-, h, -⟩ := front ws_nil hw1 (by decide) (by decide) e
      exact absurd h (by decide)
    · obtain ⟨-, -, e⟩ := front ws_nil hw1 (by decide) (by decide) e
      have g := skippedElements_ends (grammar_elements ht1) []
      have g' := skippedElements_ends h4 []
      rw [List.append_nil] at g g'
      obtain ⟨rfl, rfl⟩ := value_split ws_nil h2 g' hw1' (grammar_value hs1) g e
      rw [← h1.eq] at hs1
      rw [← h3.eq] at ht1
      exact .more σ τ i x xs w w' s t hi hw hw' (back_value hs hs1) (back_elements ht ht1)
theorem back_member : ∀ {t : Str}, SkippedMember t → ∀ {σ : Shape} {k : Str} {v : Json},
    SeenMember σ k v (dense false t) → SeenMember σ k v t
  | _, .mk s w w' t hs hw hw' ht, σ, k, v, h => by
    obtain ⟨t', h1, h2⟩ := compacts_value ht
    rw [(compacts_member hs hw hw' h1).eq] at h
    obtain ⟨c', u', rfl, g1, -⟩ := skippedValue_cons h2
    obtain ⟨s1, w1, w1', t1, hs1, hw1, hw1', e, hv⟩ := member_inv h
    rw [List.append_assoc, List.append_assoc] at e
    obtain ⟨rfl, e2⟩ := string_split hs (skippable_string hs1) e
    rcases hv with ⟨τ, ha, ht1⟩ | ⟨ha, -, rfl⟩
    · obtain ⟨-, -, e⟩ := front ws_nil hw1 (by decide) (by decide) e2
      obtain ⟨c, u, rfl, g2, -⟩ := skippedValue_cons (grammar_value ht1)
      obtain ⟨-, rfl, rfl⟩ := front ws_nil hw1' g1 g2 e
      rw [← h1.eq] at ht1
      exact .read σ τ k v s w w' t ha hs1 hw hw' (back_value ht ht1)
    · exact .skipped σ k s w w' t ha hs1 hw hw' ht
theorem back_members : ∀ {t : Str}, SkippedMembers t → ∀ {σ : Shape} {kvs : List (Str × Json)},
    SeenMembers σ kvs (dense false t) → SeenMembers σ kvs t
  | _, .close w hw, σ, kvs, h => by
    rw [(compacts_close hw (by decide)).eq] at h
    rcases members_inv h with ⟨rfl, w1, hw1, e⟩ | ⟨k, v, kvs, w1, w1', s1, t1, hw1, hw1', hs1, ht1, rfl, e⟩
    · exact .close σ w hw
    · obtain ⟨-, h, -⟩ := front (w := []) ws_nil hw1 (by decide) (by decide) e
      exact absurd h (by decide)
  | _, .more w w' s t hw hw' hs ht, σ, kvs, h => by
    obtain ⟨s', h1, h2⟩ := compacts_skippedMember hs
    obtain ⟨t', h3, h4⟩ := compacts_members ht
    rw [(compacts_more (by decide) hw hw' h1 h3).eq] at h
    rcases members_inv h with ⟨rfl, w1, hw1, e⟩ | ⟨k, v, kvs, w1, w1', s1, t1, hw1, hw1', hs1, ht1, rfl, e⟩
    · obtain ⟨-, h, -⟩ := front ws_nil hw1 (by decide) (by decide) e
      exact absurd h (by decide)
    · obtain ⟨-, -, e⟩ := front ws_nil hw1 (by decide) (by decide) e
      have g := skippedMembers_ends (grammar_members ht1) []
      have g' := skippedMembers_ends h4 []
      rw [List.append_nil] at g g'
      obtain ⟨rfl, rfl⟩ := member_split ws_nil h2 g' hw1' (grammar_member hs1) g e
      rw [← h1.eq] at hs1
      rw [← h3.eq] at ht1
      exact .more σ k v kvs w w' s t hw hw' (back_member hs hs1) (back_members ht ht1)
end

theorem see_dense {σ : Shape} {s : Str} (h : Grammatical s) : see σ (dense false s) = see σ s := by
  have key : ∀ j, SeenText σ j (dense false s) ↔ SeenText σ j s := by
    intro j
    constructor
    · obtain ⟨w, t, w', hw, ht, hw', rfl⟩ := h
      obtain ⟨t', h1, h2⟩ := compacts_value ht
      rw [(((compacts_ws hw).append h1).append (compacts_ws hw')).eq]
      rintro ⟨w1, t1, w1', hw1, ht1, hw1', e⟩
      rw [List.append_nil, List.nil_append] at e
      have e' : [] ++ t' ++ [] = w1 ++ t1 ++ w1' := by simpa using e
      obtain ⟨rfl, -⟩ := value_split ws_nil h2 (by intro c hc; cases hc) hw1 (grammar_value ht1) (ws_ends_nil hw1') e'
      rw [← h1.eq] at ht1
      exact ⟨w, t, w', hw, back_value ht ht1, hw', rfl⟩
    · rintro ⟨w, t, w', hw, ht, hw', rfl⟩
      obtain ⟨t', h1, h2⟩ := compacts_seen ht
      rw [(((compacts_ws hw).append h1).append (compacts_ws hw')).eq]
      exact ⟨[], t', [], ws_nil, h2, ws_nil, rfl⟩
  refine Option.ext fun j => ?_
  rw [see_iff, see_iff, key]

end Json
end Oid4vci
