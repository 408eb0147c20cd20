import Verif.Lemmas.Shapes

/-! A further member at the front of an object. -/

namespace Oid4vci
namespace Json

open Spec

theorem ws_cancel {w w' : Str} {c c' : Char} {s s' : Str} (hw : Ws w) (hw' : Ws w') (hc : isWs c = false)
    (hc' : isWs c' = false) (h : w ++ c :: s = w' ++ c' :: s') : c = c' ∧ s = s' := by
  have h1 := congrArg skipWs h
  rw [skipWs_append hw, skipWs_append hw', skipWs_cons hc, skipWs_cons hc'] at h1
  exact List.cons.inj h1

/-- What is seen in an object with members. -/
theorem seenText_object {σ : Shape} {w0 s : Str} {j : Json} (h0 : Ws w0) :
    SeenText σ j (w0 ++ '{' :: s) ↔
      (∃ w w', Ws w ∧ Ws w' ∧ j = obj [] ∧ s = w ++ '}' :: w') ∨
      ∃ k v kvs w t u w', Ws w ∧ Ws w' ∧ SeenMember σ k v t ∧ SeenMembers σ kvs u ∧ j = obj ((k, v) :: kvs) ∧
        s = w ++ t ++ (u ++ w') := by
  constructor
  · rintro ⟨w1, t, w', hw1, ht, hw', he⟩
    obtain ⟨c, t', rfl, hc, -⟩ := seenValue_cons ht
    rw [List.append_assoc, List.cons_append] at he
    obtain ⟨rfl, rfl⟩ := ws_cancel h0 hw1 (by decide) hc he
    cases ht with
    | leaf _ _ _ hl ht =>
      obtain ⟨c, t', e, -, -, h3⟩ := leaf_head hl ht
      cases e
      exact absurd rfl h3
    | emptyObject _ w hw => exact .inl ⟨w, w', hw, hw', rfl, by simp⟩
    | object _ k v kvs w s t hw hm hms => exact .inr ⟨k, v, kvs, w, s, t, w', hw, hw', hm, hms, rfl, by simp⟩
  · rintro (⟨w, w', hw, hw', rfl, rfl⟩ | ⟨k, v, kvs, w, t, u, w', hw, hw', hm, hms, rfl, rfl⟩)
    · exact ⟨w0, _, w', h0, .emptyObject _ w hw, hw', by simp⟩
    · exact ⟨w0, _, w', h0, .object _ k v kvs w t u hw hm hms, hw', by simp⟩

/-- The first member and what follows it. -/
theorem seenMember_cancel {σ : Shape} {k k' : Str} {v v' : Json} {w w' t t' r r' : Str} (hw : Ws w) (hw' : Ws w')
    (h : SeenMember σ k v t) (h' : SeenMember σ k' v' t') (hr : Ends r) (hr' : Ends r')
    (he : w ++ t ++ r = w' ++ t' ++ r') : k = k' ∧ v = v' ∧ r = r' := by
  have h1 := (see_complete_aux (t.length + t'.length) (max (depth v) (depth v')) σ).2.2.1 w t k v r hw h
    (Nat.le_max_left ..) (by omega) hr
  have h2 := (see_complete_aux (t.length + t'.length) (max (depth v) (depth v')) σ).2.2.1 w' t' k' v' r' hw' h'
    (Nat.le_max_right ..) (by omega) hr'
  rw [he, h2] at h1
  cases h1
  exact ⟨rfl, rfl, rfl⟩

/-- A further member at the front. -/
theorem see_front {σ : Shape} {k m w0 w w' rest : Str} {v : Json} (h0 : Ws w0) (hw : Ws w) (hw' : Ws w')
    (hm : SeenMember σ k v m) {j : Json} :
    see σ (w0 ++ '{' :: (w ++ m ++ (w' ++ ',' :: rest))) = some j ↔
      ∃ kvs, j = obj ((k, v) :: kvs) ∧ kvs ≠ [] ∧ depth v ≤ 126 ∧ see σ (w0 ++ '{' :: rest) = some (obj kvs) := by
  simp only [see_iff, seenText_object h0]
  constructor
  · rintro ⟨⟨wa, wb, ha, hb, rfl, he⟩ | ⟨k', v', kvs, wa, t, u, wb, ha, hb, hm', hms, rfl, he⟩, hd⟩
    · obtain ⟨t', rfl⟩ := seenMember_cons hm
      rw [List.append_assoc, List.cons_append] at he
      exact absurd (ws_cancel hw ha (by decide) (by decide) he).1 (by decide)
    · obtain ⟨rfl, rfl, he⟩ := seenMember_cancel hw ha hm hm' (ws_ends hw' (by decide)) (seenMembers_ends hms _) he
      cases hms with
      | close _ w1 h1 =>
        rw [List.append_assoc] at he
        exact absurd (ws_cancel hw' h1 (by decide) (by decide) he).1 (by decide)
      | more _ k1 v1 kvs w1 w2 s t h1 h2 hx hxs =>
        rw [List.append_assoc, List.cons_append] at he
        obtain ⟨-, rfl⟩ := ws_cancel hw' h1 (by decide) (by decide) he
        simp only [depth, depthMembers, maxDepth] at hd
        refine ⟨_, rfl, by simp, by omega, .inr ⟨k1, v1, kvs, w2, s, t, wb, h2, hb, hx, hxs, rfl, by simp⟩, ?_⟩
        simp only [depth, depthMembers, maxDepth]
        omega
  · rintro ⟨kvs, rfl, hne, hd, ⟨wa, wb, ha, hb, e, he⟩ | ⟨k1, v1, kvs', wa, t, u, wb, ha, hb, hm', hms, e, rfl⟩, hd'⟩
    · cases e; exact absurd rfl hne
    · cases e
      refine ⟨.inr ⟨k, v, _, w, m, w' ++ ',' :: (wa ++ t ++ u), wb, hw, hb, hm,
        .more _ _ _ _ w' wa t u hw' ha hm' hms, rfl, by simp⟩, ?_⟩
      simp only [depth, depthMembers, maxDepth] at hd' ⊢
      omega

end Json

open Json Serde Spec

theorem field_front {k k' : Str} {v : Json} {kvs : List (Str × Json)} (h : k' ≠ k) :
    field k ((k', v) :: kvs) = field k kvs := by
  simp [field, occurrences, h]

theorem fields_front {ks : List Str} {k : Str} {v : Json} {kvs : List (Str × Json)} (h : k ∉ ks) :
    fields ks ((k, v) :: kvs) = fields ks kvs := by
  induction ks with
  | nil => rfl
  | cons k' ks ih =>
    rw [List.mem_cons, not_or] at h
    rw [fields, fields, field_front h.1, ih h.2]

theorem struct_front {ks : List Str} {k : Str} {v : Json} {kvs : List (Str × Json)} (h : k ∉ ks) :
    struct ks (.obj ((k, v) :: kvs)) = struct ks (.obj kvs) := fields_front h

end Oid4vci
