import Verif.Lemmas.Skip
import Verif.Spec.Seen

/-! The reader that skips sees exactly what the specification says. -/

namespace Oid4vci
namespace Json

open Spec

theorem item_iff {σ : Shape} {i : Nat} {τ : Shape} : Item σ i τ ↔ σ.item i = τ := by
  constructor
  · intro h
    cases h with
    | vec | any | flat => rfl
    | field before after k =>
      simp only [Shape.item]
      rw [List.getElem?_append_right (Nat.le_refl _), Nat.sub_self]
      rfl
    | beyond fs i h => simp only [Shape.item, List.getElem?_eq_none h]
  · rintro rfl
    cases σ with
    | any => exact .any i
    | vec e => exact .vec e i
    | flat fs => exact .flat fs i
    | struct fs =>
      simp only [Shape.item]
      cases hg : fs[i]? with
      | none => exact .beyond fs i (List.getElem?_eq_none_iff.1 hg)
      | some p =>
        obtain ⟨hi, hp⟩ := List.getElem?_eq_some_iff.1 hg
        have h1 : fs = fs.take i ++ p :: fs.drop (i + 1) := by
          rw [← hp, ← List.drop_eq_getElem_cons hi, List.take_append_drop]
        have h2 := Item.field (fs.take i) (fs.drop (i + 1)) p.1 p.2
        rw [List.length_take, Nat.min_eq_left (Nat.le_of_lt hi)] at h2
        rw [h1]
        exact h2

theorem entry_iff {fs : List (Str × Shape)} {k : Str} {τ : Shape} : Entry fs k τ ↔ fs.lookup k = some τ := by
  induction fs with
  | nil => simp [Entry]
  | cons p fs ih =>
    obtain ⟨k', τ'⟩ := p
    rw [List.lookup_cons]
    by_cases hk : k = k'
    · subst hk
      simp only [BEq.rfl]
      constructor
      · rintro ⟨before, after, h, hb⟩
        cases before with
        | nil => simp only [List.nil_append, List.cons.injEq, Prod.mk.injEq, true_and] at h; rw [h.1]
        | cons q before =>
          simp only [List.cons_append, List.cons.injEq] at h
          exact absurd (congrArg Prod.fst h.1).symm (hb q (by simp))
      · intro h
        cases h
        exact ⟨[], fs, rfl, by simp⟩
    · rw [beq_eq_false_iff_ne.2 hk]
      simp only []
      rw [← ih]
      constructor
      · rintro ⟨before, after, h, hb⟩
        cases before with
        | nil =>
          simp only [List.nil_append, List.cons.injEq, Prod.mk.injEq] at h
          exact absurd h.1.1.symm hk
        | cons q before =>
          simp only [List.cons_append, List.cons.injEq] at h
          exact ⟨before, after, h.2, fun x hx => hb x (List.mem_cons_of_mem _ hx)⟩
      · rintro ⟨before, after, rfl, hb⟩
        exact ⟨(k', τ') :: before, after, rfl, by
          intro x hx
          rcases List.mem_cons.1 hx with rfl | hx
          · exact fun e => hk e.symm
          · exact hb x hx⟩

theorem no_entry_iff {fs : List (Str × Shape)} {k : Str} : (∀ p ∈ fs, p.1 ≠ k) ↔ fs.lookup k = none := by
  induction fs with
  | nil => simp
  | cons p fs ih =>
    obtain ⟨k', τ'⟩ := p
    rw [List.lookup_cons, List.forall_mem_cons, ih]
    by_cases hk : k = k'
    · subst hk; simp
    · rw [beq_eq_false_iff_ne.2 hk]
      simp only [ne_eq]
      exact ⟨fun h => h.2, fun h => ⟨fun e => hk e.symm, h⟩⟩

theorem asks_iff {σ : Shape} {k : Str} {τ : Shape} : Asks σ k τ ↔ σ.member k = some τ := by
  constructor
  · intro h
    cases h with
    | struct fs k τ h => exact entry_iff.1 h
    | flat fs k τ h => simp only [Shape.member, entry_iff.1 h, Option.getD_some]
    | rest fs k h => simp only [Shape.member, no_entry_iff.1 h, Option.getD_none]
    | any | vec => rfl
  · intro h
    cases σ with
    | any => cases h; exact .any k
    | vec e => cases h; exact .vec e k
    | struct fs => exact .struct fs k τ (entry_iff.2 h)
    | flat fs =>
      simp only [Shape.member, Option.some.injEq] at h
      cases hl : fs.lookup k with
      | none => rw [hl] at h; cases h; exact .rest fs k (no_entry_iff.2 hl)
      | some υ => rw [hl] at h; cases h; exact .flat fs k _ (entry_iff.2 hl)

theorem ignores_iff {σ : Shape} {k : Str} : Ignores σ k ↔ σ.member k = none := by
  constructor
  · rintro ⟨fs, k, h⟩; exact no_entry_iff.1 h
  · intro h
    cases σ with
    | struct fs => exact .struct fs k (no_entry_iff.2 h)
    | _ => cases h

/-- Apart from arrays and objects nothing is skipped. -/
theorem seeValue_leaf {f d : Nat} {σ : Shape} {s : Str} {c : Char} {r : Str} (h : skipWs s = c :: r)
    (h1 : c ≠ '[') (h2 : c ≠ '{') : seeValue (f + 1) d σ s = parseValue (f + 1) d s := by
  rw [seeValue, parseValue]
  simp only [h, if_neg h1, if_neg h2]
  rfl

theorem leaf_of_text {j : Json} {c : Char} {t : Str} (h : ValueText j (c :: t)) (h1 : c ≠ '[') (h2 : c ≠ '{') :
    Leaf j := by
  cases j with
  | arr => cases h <;> exact absurd rfl h1
  | obj => cases h <;> exact absurd rfl h2
  | _ => trivial

theorem leaf_head {j : Json} {t : Str} (hl : Leaf j) (h : ValueText j t) :
    ∃ c t', t = c :: t' ∧ isWs c = false ∧ c ≠ '[' ∧ c ≠ '{' := by
  cases h with
  | null => exact ⟨_, _, rfl, by decide⟩
  | true => exact ⟨_, _, rfl, by decide⟩
  | false => exact ⟨_, _, rfl, by decide⟩
  | integer n s h =>
    rcases number_complete h (r := []) (by intro c hc; simp at hc) with ⟨t', rfl, -⟩ | ⟨c, t', rfl, hd, -⟩
    · exact ⟨_, _, rfl, by decide⟩
    · obtain ⟨h1, -, h2, h3, -⟩ := isDigit_facts hd
      exact ⟨_, _, rfl, h1, h2, h3⟩
  | float d s h hr =>
    rcases number_complete h (r := []) (by intro c hc; simp at hc) with ⟨t', rfl, -⟩ | ⟨c, t', rfl, hd, -⟩
    · exact ⟨_, _, rfl, by decide⟩
    · obtain ⟨h1, -, h2, h3, -⟩ := isDigit_facts hd
      exact ⟨_, _, rfl, h1, h2, h3⟩
  | string v s h => obtain ⟨t, -, rfl⟩ := h; exact ⟨_, _, rfl, by decide⟩
  | _ => cases hl

/-! ### Soundness -/

theorem see_sound_aux (f : Nat) : ∀ d σ,
    (∀ s j r, seeValue f d σ s = some (j, r) →
      ∃ w t, Ws w ∧ SeenValue σ j t ∧ s = w ++ t ++ r ∧ depth j ≤ d) ∧
    (∀ i s js r, seeElems f d σ i s = some (js, r) →
      ∃ t, SeenElements σ i js t ∧ s = t ++ r ∧ depthList js ≤ d) ∧
    (∀ s kv r, seeMember f d σ s = some (kv, r) →
      ∃ w t, Ws w ∧ SeenMember σ kv.1 kv.2 t ∧ s = w ++ t ++ r ∧ depth kv.2 ≤ d) ∧
    (∀ s kvs r, seeMembers f d σ s = some (kvs, r) →
      ∃ t, SeenMembers σ kvs t ∧ s = t ++ r ∧ depthMembers kvs ≤ d) := by
  induction f with
  | zero =>
    intro d σ
    refine ⟨?_, ?_, ?_, ?_⟩
    · intro s j r h; rw [seeValue] at h; cases h
    · intro i s j r h; rw [seeElems] at h; cases h
    · intro s j r h; rw [seeMember] at h; cases h
    · intro s j r h; rw [seeMembers] at h; cases h
  | succ f ih =>
    intro d σ
    refine ⟨?_, ?_, ?_, ?_⟩
    · intro s j r h
      obtain ⟨w, hw, hs, hws⟩ := skipWs_sound s
      cases hsk : skipWs s with
      | nil => rw [seeValue] at h; simp only [hsk] at h; cases h
      | cons c r0 =>
        rw [hsk] at hs hws
        by_cases hc1 : c = '['
        · subst hc1
          rw [seeValue] at h
          simp only [hsk, Char.reduceEq, if_true, if_false] at h
          cases d with
          | zero => cases h
          | succ d =>
          simp only at h
          split at h
          · rename_i r' hr0
            cases h
            obtain ⟨w', hw', hs', -⟩ := skipWs_sound r0
            rw [hr0] at hs'
            subst hs'
            exact ⟨w, '[' :: (w' ++ [']']), hw, .emptyArray _ _ hw', by rw [hs]; simp, by simp [depth, depthList]⟩
          · split at h
            · cases h
            rename_i x r' hx
            simp only [Option.map_eq_some_iff, Prod.mk.injEq] at h
            obtain ⟨⟨xs, r''⟩, hp, rfl, rfl⟩ := h
            obtain ⟨w1, t1, hw1, ht1, rfl, hd1⟩ := (ih d _).1 _ _ _ hx
            obtain ⟨t2, ht2, rfl, hd2⟩ := (ih d _).2.1 _ _ _ _ hp
            refine ⟨w, '[' :: (w1 ++ t1 ++ t2), hw, .array _ _ _ _ _ _ _ (item_iff.2 rfl) hw1 ht1 ht2, by rw [hs]; simp, ?_⟩
            simp only [depth, depthList]; omega
        by_cases hc2 : c = '{'
        · subst hc2
          rw [seeValue] at h
          simp only [hsk, Char.reduceEq, if_true, if_false] at h
          cases d with
          | zero => cases h
          | succ d =>
          simp only at h
          split at h
          · rename_i r' hr0
            cases h
            obtain ⟨w', hw', hs', -⟩ := skipWs_sound r0
            rw [hr0] at hs'
            subst hs'
            exact ⟨w, '{' :: (w' ++ ['}']), hw, .emptyObject _ _ hw', by rw [hs]; simp,
              by simp [depth, depthMembers]⟩
          · split at h
            · cases h
            rename_i kv r' hx
            simp only [Option.map_eq_some_iff, Prod.mk.injEq] at h
            obtain ⟨⟨xs, r''⟩, hp, rfl, rfl⟩ := h
            obtain ⟨w1, t1, hw1, ht1, rfl, hd1⟩ := (ih d _).2.2.1 _ _ _ hx
            obtain ⟨t2, ht2, rfl, hd2⟩ := (ih d _).2.2.2 _ _ _ hp
            refine ⟨w, '{' :: (w1 ++ t1 ++ t2), hw, .object _ _ _ _ _ _ _ hw1 ht1 ht2, by rw [hs]; simp, ?_⟩
            simp only [depth, depthMembers]; omega
        · rw [seeValue_leaf hsk hc1 hc2] at h
          obtain ⟨w', t, hw', ht, hst, hd⟩ := (parse_sound_aux _ _).1 _ _ _ h
          refine ⟨w', t, hw', .leaf _ _ _ ?_ ht, hst, hd⟩
          obtain ⟨c', t', rfl, hc', -⟩ := valueText_cons ht
          have : skipWs s = c' :: (t' ++ r) := by
            rw [hst, List.append_assoc, skipWs_append hw']; exact skipWs_cons hc'
          rw [hsk] at this
          obtain ⟨rfl, -⟩ := List.cons.inj this
          exact leaf_of_text ht hc1 hc2
    · intro i s js r h
      obtain ⟨w, hw, hs, -⟩ := skipWs_sound s
      rw [seeElems] at h
      split at h
      · rename_i hsk; cases h; rw [hsk] at hs
        exact ⟨w ++ [']'], .close _ _ _ hw, by rw [hs]; simp, by simp [depthList]⟩
      · rename_i r0 hsk
        rw [hsk] at hs
        split at h
        · cases h
        rename_i x r' hx
        simp only [Option.map_eq_some_iff, Prod.mk.injEq] at h
        obtain ⟨⟨xs, r''⟩, hp, rfl, rfl⟩ := h
        obtain ⟨w1, t1, hw1, ht1, rfl, hd1⟩ := (ih d _).1 _ _ _ hx
        obtain ⟨t2, ht2, rfl, hd2⟩ := (ih d _).2.1 _ _ _ _ hp
        refine ⟨w ++ ',' :: (w1 ++ t1 ++ t2), .more _ _ _ _ _ _ _ _ _ (item_iff.2 rfl) hw hw1 ht1 ht2, by rw [hs]; simp, ?_⟩
        simp only [depthList]; omega
      · cases h
    · intro s kv r h
      obtain ⟨w, hw, hs, -⟩ := skipWs_sound s
      rw [seeMember] at h
      split at h
      · rename_i r0 hsk
        rw [hsk] at hs
        split at h
        · cases h
        rename_i k r1 hk
        obtain ⟨t, ht, rfl⟩ := parseStr_sound _ _ _ hk
        obtain ⟨w1, hw1, hs1, -⟩ := skipWs_sound r1
        split at h
        · rename_i r2 hsk1
          rw [hsk1] at hs1
          split at h
          · rename_i τ hτ
            simp only [Option.map_eq_some_iff, Prod.mk.injEq] at h
            obtain ⟨⟨v, r''⟩, hp, rfl, rfl⟩ := h
            obtain ⟨w2, t2, hw2, ht2, rfl, hd2⟩ := (ih d _).1 _ _ _ hp
            exact ⟨w, _, hw, .read _ _ _ _ ('"' :: (t ++ ['"'])) w1 w2 t2 (asks_iff.2 hτ) ⟨t, ht, rfl⟩ hw1 hw2 ht2,
              by rw [hs, hs1]; simp, hd2⟩
          · rename_i hτ
            simp only [Option.map_eq_some_iff, Prod.mk.injEq] at h
            obtain ⟨r'', hp, rfl, rfl⟩ := h
            obtain ⟨w2, t2, hw2, ht2, rfl⟩ := (skip_sound_aux _).1 _ _ hp
            exact ⟨w, _, hw, .skipped _ _ ('"' :: (t ++ ['"'])) w1 w2 t2 (ignores_iff.2 hτ) ⟨t, ht, rfl⟩ hw1 hw2 ht2,
              by rw [hs, hs1]; simp, by simp [depth]⟩
        · cases h
      · cases h
    · intro s js r h
      obtain ⟨w, hw, hs, -⟩ := skipWs_sound s
      rw [seeMembers] at h
      split at h
      · rename_i hsk; cases h; rw [hsk] at hs
        exact ⟨w ++ ['}'], .close _ _ hw, by rw [hs]; simp, by simp [depthMembers]⟩
      · rename_i r0 hsk
        rw [hsk] at hs
        split at h
        · cases h
        rename_i kv r' hx
        simp only [Option.map_eq_some_iff, Prod.mk.injEq] at h
        obtain ⟨⟨xs, r''⟩, hp, rfl, rfl⟩ := h
        obtain ⟨w1, t1, hw1, ht1, rfl, hd1⟩ := (ih d _).2.2.1 _ _ _ hx
        obtain ⟨t2, ht2, rfl, hd2⟩ := (ih d _).2.2.2 _ _ _ hp
        refine ⟨w ++ ',' :: (w1 ++ t1 ++ t2), .more _ _ _ _ _ _ _ _ hw hw1 ht1 ht2, by rw [hs]; simp, ?_⟩
        simp only [depthMembers]; omega
      · cases h

theorem see_sound {σ : Shape} {s : Str} {j : Json} (h : see σ s = some j) :
    SeenText σ j s ∧ depth j ≤ maxDepth := by
  unfold see at h
  split at h
  · rename_i j' r hp
    split at h
    · rename_i hr
      cases h
      obtain ⟨w, t, hw, ht, hs, hd⟩ := (see_sound_aux _ _ _).1 _ _ _ hp
      obtain ⟨w', hw', hs', -⟩ := skipWs_sound r
      rw [hr, List.append_nil] at hs'
      rw [← hs'] at hw'
      exact ⟨⟨w, t, r, hw, ht, hw', hs⟩, hd⟩
    · cases h
  · cases h

/-! ### Completeness -/

theorem seenValue_cons {σ : Shape} {j : Json} {t : Str} (h : SeenValue σ j t) :
    ∃ c t', t = c :: t' ∧ isWs c = false ∧ c ≠ ']' ∧ c ≠ '}' := by
  cases h with
  | leaf _ _ _ _ h => exact valueText_cons h
  | emptyArray => exact ⟨_, _, rfl, by decide⟩
  | array => exact ⟨_, _, rfl, by decide⟩
  | emptyObject => exact ⟨_, _, rfl, by decide⟩
  | object => exact ⟨_, _, rfl, by decide⟩

theorem seenElements_ends {σ : Shape} {i : Nat} {xs : List Json} {t : Str} (h : SeenElements σ i xs t)
    (r : Str) : Ends (t ++ r) := by
  cases h with
  | close _ i w hw => rw [List.append_assoc]; exact ws_ends hw (by decide)
  | more _ τ i x xs w w' s t hi hw => rw [List.append_assoc, List.cons_append]; exact ws_ends hw (by decide)

theorem seenMembers_ends {σ : Shape} {xs : List (Str × Json)} {t : Str} (h : SeenMembers σ xs t) (r : Str) :
    Ends (t ++ r) := by
  cases h with
  | close _ w hw => rw [List.append_assoc]; exact ws_ends hw (by decide)
  | more _ k v xs w w' s t hw => rw [List.append_assoc, List.cons_append]; exact ws_ends hw (by decide)

theorem seenMember_cons {σ : Shape} {k : Str} {v : Json} {t : Str} (h : SeenMember σ k v t) :
    ∃ t', t = '"' :: t' := by
  cases h with
  | read _ τ k v s w w' t _ hs => obtain ⟨u, -, rfl⟩ := hs; exact ⟨_, rfl⟩
  | skipped _ k s w w' t _ hs => obtain ⟨u, -, rfl⟩ := hs; exact ⟨_, rfl⟩

theorem see_complete_aux (f : Nat) : ∀ d σ,
    (∀ w t j r, Ws w → SeenValue σ j t → depth j ≤ d → t.length ≤ f → Ends r →
      seeValue f d σ (w ++ t ++ r) = some (j, r)) ∧
    (∀ i t js r, SeenElements σ i js t → depthList js ≤ d → t.length ≤ f →
      seeElems f d σ i (t ++ r) = some (js, r)) ∧
    (∀ w t k v r, Ws w → SeenMember σ k v t → depth v ≤ d → t.length ≤ f → Ends r →
      seeMember f d σ (w ++ t ++ r) = some ((k, v), r)) ∧
    (∀ t kvs r, SeenMembers σ kvs t → depthMembers kvs ≤ d → t.length ≤ f →
      seeMembers f d σ (t ++ r) = some (kvs, r)) := by
  induction f with
  | zero =>
    intro d σ
    refine ⟨?_, ?_, ?_, ?_⟩
    · intro w t j r _ h _ hl
      obtain ⟨c, t', rfl, -⟩ := seenValue_cons h
      simp at hl
    · intro i t js r h _ hl
      cases h <;> simp at hl
    · intro w t k v r _ h _ hl
      obtain ⟨t', rfl⟩ := seenMember_cons h
      simp at hl
    · intro t js r h _ hl
      cases h <;> simp at hl
  | succ f ih =>
    intro d σ
    refine ⟨?_, ?_, ?_, ?_⟩
    · intro w t j r hw h hd hl hr
      cases h with
      | leaf _ _ _ hlf h =>
        obtain ⟨c, t', rfl, h1, h2, h3⟩ := leaf_head hlf h
        have hs : skipWs (w ++ c :: t' ++ r) = c :: (t' ++ r) := by
          rw [List.append_assoc, skipWs_append hw]; exact skipWs_cons h1
        rw [seeValue_leaf hs h2 h3]
        exact (parse_complete_aux (f + 1) d).1 w _ j r hw h hd hl hr
      | emptyArray _ w' hw' =>
        rw [List.append_assoc, seeValue, skipWs_append hw]
        obtain ⟨d, rfl⟩ : ∃ g, d = g + 1 := ⟨d - 1, by simp [depth] at hd; omega⟩
        rw [List.cons_append, List.append_assoc, skipWs_cons (by decide)]
        have hs : skipWs (w' ++ ([']'] ++ r)) = ']' :: r := by
          rw [skipWs_append hw']; exact skipWs_cons (by decide)
        simp only [Char.reduceEq, if_true, if_false, hs]
      | array _ τ x xs w' s u hi hw' hx hxs =>
        obtain rfl := item_iff.1 hi
        rw [List.append_assoc, seeValue, skipWs_append hw]
        simp only [depth, depthList] at hd
        simp only [List.length_cons, List.length_append] at hl
        obtain ⟨d, rfl⟩ : ∃ g, d = g + 1 := ⟨d - 1, by omega⟩
        have h1 := (ih d _).1 w' s x (u ++ r) hw' hx (by omega) (by omega) (seenElements_ends hxs r)
        have h2 := (ih d _).2.1 _ u xs r hxs (by omega) (by omega)
        obtain ⟨c, t', rfl, c1, c2, -⟩ := seenValue_cons hx
        rw [List.cons_append, List.append_assoc, skipWs_cons (by decide)]
        have hs : skipWs (w' ++ c :: t' ++ (u ++ r)) = c :: (t' ++ (u ++ r)) := by
          rw [List.append_assoc, skipWs_append hw']; exact skipWs_cons c1
        simp only [Char.reduceEq, if_true, if_false, hs, h1]
        split
        · rename_i heq; simp at heq; exact absurd heq.1 c2
        · simp only [h2, Option.map_some]
      | emptyObject _ w' hw' =>
        rw [List.append_assoc, seeValue, skipWs_append hw]
        obtain ⟨d, rfl⟩ : ∃ g, d = g + 1 := ⟨d - 1, by simp [depth] at hd; omega⟩
        rw [List.cons_append, List.append_assoc, skipWs_cons (by decide)]
        have hs : skipWs (w' ++ (['}'] ++ r)) = '}' :: r := by
          rw [skipWs_append hw']; exact skipWs_cons (by decide)
        simp only [Char.reduceEq, if_true, if_false, hs]
      | object _ k v kvs w' s u hw' hx hxs =>
        rw [List.append_assoc, seeValue, skipWs_append hw]
        simp only [depth, depthMembers] at hd
        simp only [List.length_cons, List.length_append] at hl
        obtain ⟨d, rfl⟩ : ∃ g, d = g + 1 := ⟨d - 1, by omega⟩
        have h1 := (ih d _).2.2.1 w' s k v (u ++ r) hw' hx (by omega) (by omega) (seenMembers_ends hxs r)
        have h2 := (ih d _).2.2.2 u kvs r hxs (by omega) (by omega)
        obtain ⟨t', rfl⟩ := seenMember_cons hx
        rw [List.cons_append, List.append_assoc, skipWs_cons (by decide)]
        have hs : skipWs (w' ++ '"' :: t' ++ (u ++ r)) = '"' :: (t' ++ (u ++ r)) := by
          rw [List.append_assoc, skipWs_append hw']; exact skipWs_cons (by decide)
        simp only [Char.reduceEq, if_true, if_false, hs, h1, h2, Option.map_some]
        rfl
    · intro i t js r h hd hl
      rw [seeElems]
      cases h with
      | close _ _ w hw =>
        rw [List.append_assoc, skipWs_append hw]
        have : skipWs ([']'] ++ r) = ']' :: r := skipWs_cons (by decide)
        rw [this]
        rfl
      | more _ τ _ x xs w w' s u hi hw hw' hx hxs =>
        obtain rfl := item_iff.1 hi
        simp only [depthList] at hd
        simp only [List.length_cons, List.length_append] at hl
        have h1 := (ih d _).1 w' s x (u ++ r) hw' hx (by omega) (by omega) (seenElements_ends hxs r)
        have h2 := (ih d _).2.1 _ u xs r hxs (by omega) (by omega)
        rw [List.append_assoc, skipWs_append hw, List.cons_append, skipWs_cons (by decide)]
        simp only [List.append_assoc] at h1 ⊢
        simp only [h1, h2, Option.map_some]
    · intro w t k v r hw h hd hl hr
      rw [List.append_assoc, seeMember, skipWs_append hw]
      cases h with
      | read _ τ k v s w1 w2 t hτ hs hw1 hw2 ht =>
        rw [asks_iff] at hτ
        obtain ⟨u, hu, rfl⟩ := hs
        simp only [List.length_cons, List.length_append] at hl
        have h1 := (ih d _).1 w2 t v r hw2 ht hd (by omega) hr
        simp only [List.cons_append, List.append_assoc, List.nil_append] at h1 ⊢
        rw [skipWs_cons (by decide)]
        simp only [parseStr_complete hu, skipWs_append hw1]
        rw [skipWs_cons (by decide)]
        simp only [hτ, h1, Option.map_some]
      | skipped _ k s w1 w2 t hτ hs hw1 hw2 ht =>
        rw [ignores_iff] at hτ
        obtain ⟨u, hu, rfl⟩ := hs
        simp only [List.length_cons, List.length_append] at hl
        have h1 := (skip_complete_aux f).1 w2 t r hw2 ht (by omega) hr
        simp only [List.cons_append, List.append_assoc, List.nil_append] at h1 ⊢
        rw [skipWs_cons (by decide)]
        simp only [parseStr_complete hu, skipWs_append hw1]
        rw [skipWs_cons (by decide)]
        simp only [hτ, h1, Option.map_some]
    · intro t js r h hd hl
      rw [seeMembers]
      cases h with
      | close _ w hw =>
        rw [List.append_assoc, skipWs_append hw]
        have : skipWs (['}'] ++ r) = '}' :: r := skipWs_cons (by decide)
        rw [this]
        rfl
      | more _ k v kvs w w' s u hw hw' hx hxs =>
        simp only [depthMembers] at hd
        simp only [List.length_cons, List.length_append] at hl
        have h1 := (ih d _).2.2.1 w' s k v (u ++ r) hw' hx (by omega) (by omega) (seenMembers_ends hxs r)
        have h2 := (ih d _).2.2.2 u kvs r hxs (by omega) (by omega)
        rw [List.append_assoc, skipWs_append hw, List.cons_append, skipWs_cons (by decide)]
        simp only [List.append_assoc] at h1 ⊢
        simp only [h1, h2, Option.map_some]

theorem see_complete {σ : Shape} {s : Str} {j : Json} (h : SeenText σ j s) (hd : depth j ≤ maxDepth) :
    see σ s = some j := by
  obtain ⟨w, t, w', hw, ht, hw', rfl⟩ := h
  have h1 := (see_complete_aux (4 * (w ++ t ++ w').length + 4) maxDepth σ).1 w t j w' hw ht hd
    (by simp only [List.length_append]; omega) (ws_ends_nil hw')
  have h2 : skipWs w' = [] := by
    have := skipWs_append (s := []) hw'
    rw [List.append_nil] at this
    exact this
  simp only [see, h1, h2, if_true]

theorem see_iff {σ : Shape} {s : Str} {j : Json} : see σ s = some j ↔ SeenText σ j s ∧ depth j ≤ maxDepth :=
  ⟨see_sound, fun h => see_complete h.1 h.2⟩

end Json
end Oid4vci
