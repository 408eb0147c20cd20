import Verif.Lemmas.Json

/-! The parser accepts exactly the texts of RFC 8259, up to the nesting limit. -/

namespace Oid4vci
namespace Json

open Spec

/-! ### Digits -/

theorem mem_hexDigits {c : Char} {d : Nat} : (c, d) ∈ hexDigits ↔ hexVal c = some d := by
  constructor
  · intro h
    have hall : ∀ p ∈ hexDigits, hexVal p.1 = some p.2 := by decide +kernel
    exact hall _ h
  · intro h
    have hc : ∀ n : Fin 128, ∀ d ∈ hexVal (Char.ofNat n.1), (Char.ofNat n.1, d) ∈ hexDigits := by
      decide +kernel
    have hlt : c.toNat < 128 := by
      unfold hexVal at h
      split at h
      · omega
      split at h
      · omega
      split at h
      · omega
      · cases h
    have := hc ⟨c.toNat, hlt⟩ d
    simp only [Char.ofNat_toNat] at this
    exact this h

theorem hex4_iff {n : Nat} {s : Str} : Hex4 n s ↔ ∃ a b c d, s = [a, b, c, d] ∧ hex4 a b c d = some n := by
  constructor
  · rintro ⟨ds, ⟨ps, hp, rfl, rfl⟩, hl, rfl⟩
    match ps, hl, hp with
    | [p, q, r, t], _, hp =>
      refine ⟨_, _, _, _, rfl, ?_⟩
      have h1 := mem_hexDigits.1 (hp p (by simp))
      have h2 := mem_hexDigits.1 (hp q (by simp))
      have h3 := mem_hexDigits.1 (hp r (by simp))
      have h4 := mem_hexDigits.1 (hp t (by simp))
      simp [hex4, h1, h2, h3, h4, numeral]
      omega
  · rintro ⟨a, b, c, d, rfl, h⟩
    simp only [hex4, Option.bind_eq_bind, Option.bind_eq_some_iff] at h
    obtain ⟨va, ha, vb, hb, vc, hc, vd, hd, h⟩ := h
    cases h
    refine ⟨[va, vb, vc, vd], ⟨[(a, va), (b, vb), (c, vc), (d, vd)], ?_, rfl, rfl⟩, rfl, ?_⟩
    · intro p hp
      simp only [List.mem_cons, List.not_mem_nil, or_false] at hp
      rcases hp with rfl | rfl | rfl | rfl <;> exact mem_hexDigits.2 (by assumption)
    · simp [numeral]; omega

theorem hex4_lt {a b c d : Char} {n : Nat} (h : hex4 a b c d = some n) : n < 65536 := by
  have hv : ∀ {c v}, hexVal c = some v → v < 16 := by
    intro c v h
    unfold hexVal at h
    split at h
    · cases h; omega
    split at h
    · cases h; omega
    split at h
    · cases h; omega
    · cases h
  simp only [hex4, Option.bind_eq_bind, Option.bind_eq_some_iff] at h
  obtain ⟨va, ha, vb, hb, vc, hc, vd, hd, h⟩ := h
  cases h
  have := hv ha; have := hv hb; have := hv hc; have := hv hd
  omega

/-! ### String literals -/

theorem mem_escapes {e c : Char} : (e, c) ∈ escapes ↔ simpleEscape e = some c := by
  constructor
  · intro h
    have hall : ∀ p ∈ escapes, simpleEscape p.1 = some p.2 := by decide +kernel
    exact hall _ h
  · intro h
    unfold simpleEscape at h
    repeat' split at h
    all_goals first
      | (cases h; subst_vars; decide)
      | cases h

theorem toNat_ofNat {n : Nat} (h : n < 0xD800 ∨ 0xDFFF < n ∧ n < 0x110000) :
    (Char.ofNat n).toNat = n := by
  have hv : n.isValidChar := h
  simp [Char.ofNat, hv, Char.ofNatAux, Char.toNat]

theorem parseStr_sound (s : Str) : ∀ v r, parseStr s = some (v, r) →
    ∃ t, CharsText v t ∧ s = t ++ '"' :: r := by
  induction hl : s.length using Nat.strongRecOn generalizing s with
  | _ n ih =>
  intro v r h
  subst hl
  rw [parseStr.eq_def] at h
  split at h
  · cases h
  split at h
  · cases h; subst_vars; exact ⟨[], .nil, rfl⟩
  split at h
  · subst_vars
    split at h
    · split at h
      · cases h
      rename_i hx4
      split at h
      · cases h
      split at h
      · split at h
        · split at h
          · cases h
          rename_i hy4
          split at h
          · simp only [Option.map_eq_some_iff, Prod.mk.injEq] at h
            obtain ⟨⟨v', r'⟩, hp, rfl, rfl⟩ := h
            obtain ⟨t, ht, rfl⟩ := ih _ (by simp; omega) _ rfl _ _ hp
            refine ⟨_, .pair _ _ _ _ _ _ _ (hex4_iff.2 ⟨_, _, _, _, rfl, hx4⟩)
              (hex4_iff.2 ⟨_, _, _, _, rfl, hy4⟩) ?_ ?_ ?_ ?_ ?_ ht, by simp⟩
            all_goals first | omega | (rw [toNat_ofNat (by omega)]; omega)
          · cases h
        · cases h
      · simp only [Option.map_eq_some_iff, Prod.mk.injEq] at h
        obtain ⟨⟨v', r'⟩, hp, rfl, rfl⟩ := h
        obtain ⟨t, ht, rfl⟩ := ih _ (by simp; omega) _ rfl _ _ hp
        have := hex4_lt hx4
        rename_i n _ _
        have hn : (Char.ofNat n).toNat = n := toNat_ofNat (by omega)
        exact ⟨_, .unicode _ _ _ _ (hex4_iff.2 ⟨_, _, _, _, rfl, hx4.trans (by rw [hn])⟩) ht, by simp⟩
    · split at h
      · rename_i hx
        simp only [Option.map_eq_some_iff, Prod.mk.injEq] at h
        obtain ⟨⟨v', r'⟩, hp, rfl, rfl⟩ := h
        obtain ⟨t, ht, rfl⟩ := ih _ (by simp; omega) _ rfl _ _ hp
        exact ⟨_, .escape _ _ _ _ (mem_escapes.2 hx) ht, rfl⟩
      · cases h
    · cases h
  split at h
  · cases h
  · simp only [Option.map_eq_some_iff, Prod.mk.injEq] at h
    obtain ⟨⟨v', r'⟩, hp, rfl, rfl⟩ := h
    obtain ⟨t, ht, rfl⟩ := ih _ (by simp) _ rfl _ _ hp
    exact ⟨_, .unescaped _ _ _ (by omega) (by assumption) (by assumption) ht, rfl⟩

theorem parseStr_complete {v t : Str} (h : CharsText v t) (r : Str) :
    parseStr (t ++ '"' :: r) = some (v, r) := by
  induction h with
  | nil => rw [parseStr.eq_def]; simp
  | unescaped c v t h1 h2 h3 _ ih =>
    rw [List.cons_append, parseStr.eq_def]
    simp only [h2, h3, if_false, if_neg (show ¬ c.toNat < 32 by omega), ih, Option.map_some]
  | escape e c v t he _ ih =>
    rw [mem_escapes] at he
    have hu : e ≠ 'u' := by rintro rfl; exact absurd (he.symm.trans (by decide : simpleEscape 'u' = none)) (by simp)
    rw [List.cons_append, List.cons_append, parseStr.eq_def]
    simp only [Char.reduceEq, if_false, if_true]
    split
    · rename_i heq; simp at heq; exact absurd heq.1 hu
    · rename_i heq; simp only [List.cons.injEq] at heq
      obtain ⟨rfl, rfl⟩ := heq
      rw [he]; simp only [ih, Option.map_some]
    · rename_i heq; cases heq
  | unicode c h v t hx _ ih =>
    obtain ⟨a, b, c', d, rfl, hx'⟩ := hex4_iff.1 hx
    rw [parseStr.eq_def]
    simp only [List.cons_append, List.nil_append, Char.reduceEq, if_false, if_true, hx']
    have hv : c.toNat < 0xD800 ∨ 0xDFFF < c.toNat ∧ c.toNat < 0x110000 := c.valid
    rw [if_neg (by omega), if_neg (by omega), ih, Char.ofNat_toNat]
    rfl
  | pair c hi lo h l v t hh hl h1 h2 h3 h4 hc _ ih =>
    obtain ⟨a, b, c', d, rfl, hx⟩ := hex4_iff.1 hh
    obtain ⟨a', b', c'', d', rfl, hy⟩ := hex4_iff.1 hl
    rw [parseStr.eq_def]
    simp only [List.cons_append, List.nil_append, Char.reduceEq, if_false, if_true, hx, hy]
    rw [if_neg (by omega), if_pos (by omega), if_pos (by omega), ih]
    have : (hi - 0xD800) * 1024 + (lo - 0xDC00) + 0x10000 = c.toNat := by omega
    rw [this, Char.ofNat_toNat]
    rfl

/-! ### White space -/

theorem isWs_iff {c : Char} : isWs c = true ↔ c ∈ [' ', '\t', '\n', '\r'] := by
  simp [isWs]; tauto

theorem skipWs_sound (s : Str) : ∃ w, Ws w ∧ s = w ++ skipWs s ∧ ∀ c ∈ (skipWs s).head?, isWs c = false := by
  induction s with
  | nil => exact ⟨[], by simp [Ws], rfl, by simp [skipWs]⟩
  | cons c s ih =>
    cases hc : isWs c with
    | true =>
      obtain ⟨w, h1, h2, h3⟩ := ih
      have e : skipWs (c :: s) = skipWs s := by simp [skipWs, hc]
      refine ⟨c :: w, ?_, ?_, by rw [e]; exact h3⟩
      · intro x hx
        rcases List.mem_cons.1 hx with rfl | hx
        · exact isWs_iff.1 hc
        · exact h1 x hx
      · rw [e, List.cons_append, ← h2]
    | false =>
      refine ⟨[], by simp [Ws], by rw [skipWs_cons hc]; rfl, ?_⟩
      rw [skipWs_cons hc]
      intro x hx; simp at hx; rw [← hx]; exact hc

theorem skipWs_complete {w s : Str} (h : Ws w) (hs : ∀ c ∈ s.head?, isWs c = false) :
    skipWs (w ++ s) = s := by
  unfold skipWs
  rw [List.dropWhile_append_of_pos fun c hc => isWs_iff.2 (h c hc)]
  cases s with
  | nil => rfl
  | cons c s => simp [hs c (by simp)]

theorem skipWs_append {w s : Str} (h : Ws w) : skipWs (w ++ s) = skipWs s := by
  unfold skipWs
  rw [List.dropWhile_append_of_pos fun c hc => isWs_iff.2 (h c hc)]

/-! ### Soundness -/

theorem parse_sound_aux (f : Nat) : ∀ d,
    (∀ s j r, parseValue f d s = some (j, r) →
      ∃ w t, Ws w ∧ ValueText j t ∧ s = w ++ t ++ r ∧ depth j ≤ d) ∧
    (∀ s js r, parseElems f d s = some (js, r) →
      ∃ t, ElementsText js t ∧ s = t ++ r ∧ depthList js ≤ d) ∧
    (∀ s kv r, parseMember f d s = some (kv, r) →
      ∃ w t, Ws w ∧ MemberText kv.1 kv.2 t ∧ s = w ++ t ++ r ∧ depth kv.2 ≤ d) ∧
    (∀ s kvs r, parseMembers f d s = some (kvs, r) →
      ∃ t, MembersText kvs t ∧ s = t ++ r ∧ depthMembers kvs ≤ d) := by
  induction f with
  | zero =>
    intro d
    refine ⟨?_, ?_, ?_, ?_⟩ <;> intro s j r h
    · rw [parseValue] at h; cases h
    · rw [parseElems] at h; cases h
    · rw [parseMember] at h; cases h
    · rw [parseMembers] at h; cases h
  | succ f ih =>
    intro d
    refine ⟨?_, ?_, ?_, ?_⟩
    · intro s j r h
      obtain ⟨w, hw, hs, -⟩ := skipWs_sound s
      rw [parseValue] at h
      split at h
      · cases h
      rename_i c r0 hsk
      rw [hsk] at hs
      split at h
      · subst_vars
        simp only [Option.map_eq_some_iff, Prod.mk.injEq] at h
        obtain ⟨⟨v, r'⟩, hp, rfl, rfl⟩ := h
        obtain ⟨t, ht, rfl⟩ := parseStr_sound _ _ _ hp
        exact ⟨w, '"' :: (t ++ ['"']), hw, .string _ _ ⟨t, ht, rfl⟩, by simp, by simp [depth]⟩
      split at h
      · subst_vars
        split at h
        · cases h
        rename_i d
        split at h
        · rename_i r' hr0
          cases h
          obtain ⟨w', hw', hs', -⟩ := skipWs_sound r0
          rw [hr0] at hs'
          subst hs'
          exact ⟨w, '[' :: (w' ++ [']']), hw, .emptyArray _ hw', by simp, by simp [depth, depthList]⟩
        · split at h
          · cases h
          rename_i x r' hx
          simp only [Option.map_eq_some_iff, Prod.mk.injEq] at h
          obtain ⟨⟨xs, r''⟩, hp, rfl, rfl⟩ := h
          obtain ⟨w1, t1, hw1, ht1, rfl, hd1⟩ := (ih d).1 _ _ _ hx
          obtain ⟨t2, ht2, rfl, hd2⟩ := (ih d).2.1 _ _ _ hp
          refine ⟨w, '[' :: (w1 ++ t1 ++ t2), hw, .array _ _ _ _ _ hw1 ht1 ht2, by simp, ?_⟩
          simp only [depth, depthList]; omega
      split at h
      · subst_vars
        split at h
        · cases h
        rename_i d
        split at h
        · rename_i r' hr0
          cases h
          obtain ⟨w', hw', hs', -⟩ := skipWs_sound r0
          rw [hr0] at hs'
          subst hs'
          exact ⟨w, '{' :: (w' ++ ['}']), hw, .emptyObject _ hw', by simp, by simp [depth, depthMembers]⟩
        · split at h
          · cases h
          rename_i kv r' hx
          simp only [Option.map_eq_some_iff, Prod.mk.injEq] at h
          obtain ⟨⟨xs, r''⟩, hp, rfl, rfl⟩ := h
          obtain ⟨w1, t1, hw1, ht1, rfl, hd1⟩ := (ih d).2.2.1 _ _ _ hx
          obtain ⟨t2, ht2, rfl, hd2⟩ := (ih d).2.2.2 _ _ _ hp
          refine ⟨w, '{' :: (w1 ++ t1 ++ t2), hw, .object _ _ _ _ _ _ hw1 ht1 ht2, by simp, ?_⟩
          simp only [depth, depthMembers]; omega
      split at h
      · subst_vars
        obtain ⟨t, ht, hd, rfl⟩ := readNumber_sound h
        exact ⟨w, '-' :: t, hw, by simpa using ht, by simp, by omega⟩
      split at h
      · obtain ⟨t, ht, hd, hst⟩ := readNumber_sound h
        exact ⟨w, t, hw, by simpa using ht, by rw [hs, hst]; simp, by omega⟩
      split at h
      · rename_i heq; cases h; rw [heq] at hs
        exact ⟨w, str! "null", hw, .null, by simp [hs], by simp [depth]⟩
      · rename_i heq; cases h; rw [heq] at hs
        exact ⟨w, str! "true", hw, .true, by simp [hs], by simp [depth]⟩
      · rename_i heq; cases h; rw [heq] at hs
        exact ⟨w, str! "false", hw, .false, by simp [hs], by simp [depth]⟩
      · cases h
    · intro s js r h
      obtain ⟨w, hw, hs, -⟩ := skipWs_sound s
      rw [parseElems] at h
      split at h
      · rename_i hsk; cases h; rw [hsk] at hs
        exact ⟨w ++ [']'], .close _ hw, by rw [hs]; simp, by simp [depthList]⟩
      · rename_i r0 hsk
        rw [hsk] at hs
        split at h
        · cases h
        rename_i x r' hx
        simp only [Option.map_eq_some_iff, Prod.mk.injEq] at h
        obtain ⟨⟨xs, r''⟩, hp, rfl, rfl⟩ := h
        obtain ⟨w1, t1, hw1, ht1, rfl, hd1⟩ := (ih d).1 _ _ _ hx
        obtain ⟨t2, ht2, rfl, hd2⟩ := (ih d).2.1 _ _ _ hp
        refine ⟨w ++ ',' :: (w1 ++ t1 ++ t2), .more _ _ _ _ _ _ hw hw1 ht1 ht2, by rw [hs]; simp, ?_⟩
        simp only [depthList]; omega
      · cases h
    · intro s kv r h
      obtain ⟨w, hw, hs, -⟩ := skipWs_sound s
      rw [parseMember] at h
      split at h
      · rename_i r0 hsk
        rw [hsk] at hs
        split at h
        · cases h
        rename_i k r1 hk
        obtain ⟨t, ht, rfl⟩ := parseStr_sound _ _ _ hk
        obtain ⟨w1, hw1, hs1, -⟩ := skipWs_sound r1
        split at h
        · rename_i r2 hsk1
          rw [hsk1] at hs1
          simp only [Option.map_eq_some_iff, Prod.mk.injEq] at h
          obtain ⟨⟨v, r''⟩, hp, rfl, rfl⟩ := h
          obtain ⟨w2, t2, hw2, ht2, rfl, hd2⟩ := (ih d).1 _ _ _ hp
          exact ⟨w, _, hw, .mk _ _ ('"' :: (t ++ ['"'])) w1 w2 t2 ⟨t, ht, rfl⟩ hw1 hw2 ht2,
            by rw [hs, hs1]; simp, hd2⟩
        · cases h
      · cases h
    · intro s js r h
      obtain ⟨w, hw, hs, -⟩ := skipWs_sound s
      rw [parseMembers] at h
      split at h
      · rename_i hsk; cases h; rw [hsk] at hs
        exact ⟨w ++ ['}'], .close _ hw, by rw [hs]; simp, by simp [depthMembers]⟩
      · rename_i r0 hsk
        rw [hsk] at hs
        split at h
        · cases h
        rename_i kv r' hx
        simp only [Option.map_eq_some_iff, Prod.mk.injEq] at h
        obtain ⟨⟨xs, r''⟩, hp, rfl, rfl⟩ := h
        obtain ⟨w1, t1, hw1, ht1, rfl, hd1⟩ := (ih d).2.2.1 _ _ _ hx
        obtain ⟨t2, ht2, rfl, hd2⟩ := (ih d).2.2.2 _ _ _ hp
        refine ⟨w ++ ',' :: (w1 ++ t1 ++ t2), .more _ _ _ _ _ _ _ hw hw1 ht1 ht2, by rw [hs]; simp, ?_⟩
        simp only [depthMembers]; omega
      · cases h

theorem parse_sound {s : Str} {j : Json} (h : parse s = some j) : JsonText j s ∧ depth j ≤ maxDepth := by
  unfold parse at h
  split at h
  · rename_i j' r hp
    split at h
    · rename_i hr
      cases h
      obtain ⟨w, t, hw, ht, hs, hd⟩ := (parse_sound_aux _ _).1 _ _ _ hp
      obtain ⟨w', hw', hs', -⟩ := skipWs_sound r
      rw [hr, List.append_nil] at hs'
      rw [← hs'] at hw'
      exact ⟨⟨w, t, r, hw, ht, hw', hs⟩, hd⟩
    · cases h
  · cases h

/-! ### Completeness -/

theorem numberText_cons {j : Lexical} {t : Str} (h : NumberText j t) :
    ∃ c t', t = c :: t' ∧ isWs c = false ∧ c ≠ ']' ∧ c ≠ '}' := by
  rcases number_complete h (r := []) (by intro c hc; simp at hc) with ⟨t', rfl, -⟩ | ⟨c, t', rfl, hd, -⟩
  · exact ⟨_, _, rfl, by decide⟩
  · obtain ⟨h1, -, -, -, h2, h3, -⟩ := isDigit_facts hd
    exact ⟨_, _, rfl, h1, h2, h3⟩

theorem valueText_cons {j : Json} {t : Str} (h : ValueText j t) :
    ∃ c t', t = c :: t' ∧ isWs c = false ∧ c ≠ ']' ∧ c ≠ '}' := by
  cases h with
  | null => exact ⟨_, _, rfl, by decide⟩
  | true => exact ⟨_, _, rfl, by decide⟩
  | false => exact ⟨_, _, rfl, by decide⟩
  | integer _ _ h => exact numberText_cons h
  | float _ _ h _ => exact numberText_cons h
  | string v s h => obtain ⟨t, -, rfl⟩ := h; exact ⟨_, _, rfl, by decide⟩
  | emptyArray => exact ⟨_, _, rfl, by decide⟩
  | array => exact ⟨_, _, rfl, by decide⟩
  | emptyObject => exact ⟨_, _, rfl, by decide⟩
  | object => exact ⟨_, _, rfl, by decide⟩

theorem ws_ends {w : Str} {c : Char} {t : Str} (h : Ws w)
    (hc : isDigit c = false ∧ c ≠ '.' ∧ c ≠ 'e' ∧ c ≠ 'E') : Ends (w ++ c :: t) := by
  intro x hx
  cases w with
  | nil => simp at hx; subst hx; exact hc
  | cons y w =>
    simp at hx; subst hx
    have := h y (by simp)
    simp only [List.mem_cons, List.not_mem_nil, or_false] at this
    rcases this with rfl | rfl | rfl | rfl <;> decide

theorem ws_ends_nil {w : Str} (h : Ws w) : Ends w := by
  intro x hx
  cases w with
  | nil => simp at hx
  | cons y w =>
    simp at hx; subst hx
    have := h y (by simp)
    simp only [List.mem_cons, List.not_mem_nil, or_false] at this
    rcases this with rfl | rfl | rfl | rfl <;> decide

theorem elementsText_ends {xs : List Json} {t : Str} (h : ElementsText xs t) (r : Str) : Ends (t ++ r) := by
  cases h with
  | close w hw => rw [List.append_assoc]; exact ws_ends hw (by decide)
  | more x xs w w' s t hw => rw [List.append_assoc, List.cons_append]; exact ws_ends hw (by decide)

theorem membersText_ends {xs : List (Str × Json)} {t : Str} (h : MembersText xs t) (r : Str) :
    Ends (t ++ r) := by
  cases h with
  | close w hw => rw [List.append_assoc]; exact ws_ends hw (by decide)
  | more k v xs w w' s t hw => rw [List.append_assoc, List.cons_append]; exact ws_ends hw (by decide)

theorem memberText_cons {k : Str} {v : Json} {t : Str} (h : MemberText k v t) : ∃ t', t = '"' :: t' := by
  cases h with
  | mk k v s w w' t hs => obtain ⟨u, -, rfl⟩ := hs; exact ⟨_, rfl⟩

theorem parse_complete_aux (f : Nat) : ∀ d,
    (∀ w t j r, Ws w → ValueText j t → depth j ≤ d → t.length ≤ f → Ends r →
      parseValue f d (w ++ t ++ r) = some (j, r)) ∧
    (∀ t js r, ElementsText js t → depthList js ≤ d → t.length ≤ f →
      parseElems f d (t ++ r) = some (js, r)) ∧
    (∀ w t k v r, Ws w → MemberText k v t → depth v ≤ d → t.length ≤ f → Ends r →
      parseMember f d (w ++ t ++ r) = some ((k, v), r)) ∧
    (∀ t kvs r, MembersText kvs t → depthMembers kvs ≤ d → t.length ≤ f →
      parseMembers f d (t ++ r) = some (kvs, r)) := by
  induction f with
  | zero =>
    intro d
    refine ⟨?_, ?_, ?_, ?_⟩
    · intro w t j r _ h _ hl
      obtain ⟨c, t', rfl, -⟩ := valueText_cons h
      simp at hl
    · intro t js r h _ hl
      cases h <;> simp at hl
    · intro w t k v r _ h _ hl
      obtain ⟨t', rfl⟩ := memberText_cons h
      simp at hl
    · intro t js r h _ hl
      cases h <;> simp at hl
  | succ f ih =>
    intro d
    refine ⟨?_, ?_, ?_, ?_⟩
    · intro w t j r hw h hd hl hr
      rw [List.append_assoc, parseValue, skipWs_append hw]
      cases h with
      | null => simp [skipWs, isWs, isDigit]
      | true => simp [skipWs, isWs, isDigit]
      | false => simp [skipWs, isWs, isDigit]
      | integer _ _ h =>
        rcases number_complete h hr with ⟨t', rfl, hp⟩ | ⟨c, t', rfl, hdig, hp⟩ <;>
          replace hp := readNumber_num hp
        · rw [List.cons_append, skipWs_cons (by decide)]
          simp only [Char.reduceEq, if_true, if_false, hp]
        · obtain ⟨h1, h2, h3, h4, -, -, h5, -⟩ := isDigit_facts hdig
          rw [List.cons_append] at hp ⊢
          rw [skipWs_cons h1]
          simp only [h2, h3, h4, h5, hdig, if_true, if_false, hp]
      | float _ _ h hread =>
        rcases number_complete h hr with ⟨t', rfl, hp⟩ | ⟨c, t', rfl, hdig, hp⟩ <;>
          replace hp := readNumber_float h hread hp
        · rw [List.cons_append, skipWs_cons (by decide)]
          simp only [Char.reduceEq, if_true, if_false, hp]
        · obtain ⟨h1, h2, h3, h4, -, -, h5, -⟩ := isDigit_facts hdig
          rw [List.cons_append] at hp ⊢
          rw [skipWs_cons h1]
          simp only [h2, h3, h4, h5, hdig, if_true, if_false, hp]
      | string v s h =>
        obtain ⟨t, ht, rfl⟩ := h
        rw [List.cons_append, List.append_assoc, skipWs_cons (by decide)]
        simp only [Char.reduceEq, if_true, List.cons_append, List.nil_append, parseStr_complete ht,
          Option.map_some]
      | emptyArray w' hw' =>
        obtain ⟨d, rfl⟩ : ∃ g, d = g + 1 := ⟨d - 1, by simp [depth] at hd; omega⟩
        rw [List.cons_append, List.append_assoc, skipWs_cons (by decide)]
        have hs : skipWs (w' ++ ([']'] ++ r)) = ']' :: r := by
          rw [skipWs_append hw']; exact skipWs_cons (by decide)
        simp only [Char.reduceEq, if_true, if_false, hs]
      | array x xs w' s u hw' hx hxs =>
        simp only [depth, depthList] at hd
        simp only [List.length_cons, List.length_append] at hl
        obtain ⟨d, rfl⟩ : ∃ g, d = g + 1 := ⟨d - 1, by omega⟩
        have h1 := (ih d).1 w' s x (u ++ r) hw' hx (by omega) (by omega) (elementsText_ends hxs r)
        have h2 := (ih d).2.1 u xs r hxs (by omega) (by omega)
        obtain ⟨c, t', rfl, c1, c2, -⟩ := valueText_cons hx
        rw [List.cons_append, List.append_assoc, skipWs_cons (by decide)]
        have hs : skipWs (w' ++ c :: t' ++ (u ++ r)) = c :: (t' ++ (u ++ r)) := by
          rw [List.append_assoc, skipWs_append hw']; exact skipWs_cons c1
        simp only [Char.reduceEq, if_true, if_false, hs, h1]
        split
        · rename_i heq; simp at heq; exact absurd heq.1 c2
        · simp only [h2, Option.map_some]
      | emptyObject w' hw' =>
        obtain ⟨d, rfl⟩ : ∃ g, d = g + 1 := ⟨d - 1, by simp [depth] at hd; omega⟩
        rw [List.cons_append, List.append_assoc, skipWs_cons (by decide)]
        have hs : skipWs (w' ++ (['}'] ++ r)) = '}' :: r := by
          rw [skipWs_append hw']; exact skipWs_cons (by decide)
        simp only [Char.reduceEq, if_true, if_false, hs]
      | object k v kvs w' s u hw' hx hxs =>
        simp only [depth, depthMembers] at hd
        simp only [List.length_cons, List.length_append] at hl
        obtain ⟨d, rfl⟩ : ∃ g, d = g + 1 := ⟨d - 1, by omega⟩
        have h1 := (ih d).2.2.1 w' s k v (u ++ r) hw' hx (by omega) (by omega) (membersText_ends hxs r)
        have h2 := (ih d).2.2.2 u kvs r hxs (by omega) (by omega)
        obtain ⟨t', rfl⟩ := memberText_cons hx
        rw [List.cons_append, List.append_assoc, skipWs_cons (by decide)]
        have hs : skipWs (w' ++ '"' :: t' ++ (u ++ r)) = '"' :: (t' ++ (u ++ r)) := by
          rw [List.append_assoc, skipWs_append hw']; exact skipWs_cons (by decide)
        simp only [Char.reduceEq, if_true, if_false, hs, h1, h2, Option.map_some]
        rfl
    · intro t js r h hd hl
      rw [parseElems]
      cases h with
      | close w hw =>
        rw [List.append_assoc, skipWs_append hw]
        have : skipWs ([']'] ++ r) = ']' :: r := skipWs_cons (by decide)
        rw [this]
        rfl
      | more x xs w w' s u hw hw' hx hxs =>
        simp only [depthList] at hd
        simp only [List.length_cons, List.length_append] at hl
        have h1 := (ih d).1 w' s x (u ++ r) hw' hx (by omega) (by omega) (elementsText_ends hxs r)
        have h2 := (ih d).2.1 u xs r hxs (by omega) (by omega)
        rw [List.append_assoc, skipWs_append hw, List.cons_append, skipWs_cons (by decide)]
        simp only [List.append_assoc] at h1 ⊢
        simp only [h1, h2, Option.map_some]
    · intro w t k v r hw h hd hl hr
      rw [List.append_assoc, parseMember, skipWs_append hw]
      cases h with
      | mk k v s w1 w2 t hs hw1 hw2 ht =>
        obtain ⟨u, hu, rfl⟩ := hs
        simp only [List.length_cons, List.length_append] at hl
        have h1 := (ih d).1 w2 t v r hw2 ht hd (by omega) hr
        simp only [List.cons_append, List.append_assoc, List.nil_append] at h1 ⊢
        rw [skipWs_cons (by decide)]
        simp only [parseStr_complete hu, skipWs_append hw1]
        rw [skipWs_cons (by decide)]
        simp only [h1, Option.map_some]
    · intro t js r h hd hl
      rw [parseMembers]
      cases h with
      | close w hw =>
        rw [List.append_assoc, skipWs_append hw]
        have : skipWs (['}'] ++ r) = '}' :: r := skipWs_cons (by decide)
        rw [this]
        rfl
      | more k v kvs w w' s u hw hw' hx hxs =>
        simp only [depthMembers] at hd
        simp only [List.length_cons, List.length_append] at hl
        have h1 := (ih d).2.2.1 w' s k v (u ++ r) hw' hx (by omega) (by omega) (membersText_ends hxs r)
        have h2 := (ih d).2.2.2 u kvs r hxs (by omega) (by omega)
        rw [List.append_assoc, skipWs_append hw, List.cons_append, skipWs_cons (by decide)]
        simp only [List.append_assoc] at h1 ⊢
        simp only [h1, h2, Option.map_some]

theorem parse_complete {s : Str} {j : Json} (h : JsonText j s) (hd : depth j ≤ maxDepth) :
    parse s = some j := by
  obtain ⟨w, t, w', hw, ht, hw', rfl⟩ := h
  have h1 := (parse_complete_aux (4 * (w ++ t ++ w').length + 4) maxDepth).1 w t j w' hw ht hd
    (by simp only [List.length_append]; omega) (ws_ends_nil hw')
  have h2 : skipWs w' = [] := by
    have := skipWs_append (s := []) hw'
    rw [List.append_nil] at this
    exact this
  simp only [parse, h1, h2, if_true]

theorem parse_iff {s : Str} {j : Json} : parse s = some j ↔ JsonText j s ∧ depth j ≤ maxDepth :=
  ⟨parse_sound, fun h => parse_complete h.1 h.2⟩

end Json
end Oid4vci
