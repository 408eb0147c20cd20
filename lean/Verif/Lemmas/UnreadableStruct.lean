import Verif.Lemmas.Unreadable
import Verif.Props.JwtText

/-! The readers of header and body accept exactly what can be read at all. -/

namespace Oid4vci
namespace Reading

open Json Serde
open Spec hiding value

variable {α β : Type}

/-- No known member twice, and none of those in `seen`. -/
def Fresh (fld : Str → Option (Reader Json)) : List Str → List (Str × Json) → Prop
  | _, [] => True
  | seen, (k, _) :: kvs =>
    if (fld k).isSome then k ∉ seen ∧ Fresh fld (k :: seen) kvs else Fresh fld seen kvs

theorem fresh_iff {fld : Str → Option (Reader Json)} : ∀ (kvs : List (Str × Json)) (seen : List Str),
    Fresh fld seen kvs ↔ ∀ k, (fld k).isSome → (occurrences k kvs).length ≤ 1 ∧ (k ∈ seen → occurrences k kvs = []) := by
  intro kvs
  have hcons : ∀ (k k' : Str) (v : Json) (kvs : List (Str × Json)),
      occurrences k ((k', v) :: kvs) = if k' = k then v :: occurrences k kvs else occurrences k kvs := by
    intro k k' v kvs
    unfold occurrences
    by_cases h : k' = k <;> simp [h]
  induction kvs with
  | nil => intro seen; simp [Fresh, occurrences]
  | cons p kvs ih =>
    obtain ⟨k', v⟩ := p
    intro seen
    unfold Fresh
    split
    · rename_i hk
      rw [ih]
      constructor
      · rintro ⟨h1, h2⟩ k hs
        rw [hcons]
        obtain ⟨h3, h4⟩ := h2 k hs
        split
        · rename_i e; subst e
          rw [h4 (by simp)]
          exact ⟨by simp, fun h => absurd h h1⟩
        · exact ⟨h3, fun h => h4 (by simp [h])⟩
      · intro h
        refine ⟨fun hm => ?_, fun k hs => ?_⟩
        · have := (h k' hk).2 hm
          rw [hcons, if_pos rfl] at this
          cases this
        · have := h k hs
          rw [hcons] at this
          split at this
          · rename_i e; subst e
            simp only [List.length_cons] at this
            have h0 : occurrences k' kvs = [] := List.length_eq_zero_iff.1 (by omega)
            rw [h0]; simp
          · rename_i hne
            exact ⟨this.1, fun hm => this.2 ((List.mem_cons.1 hm).resolve_left fun e => hne e.symm)⟩
    · rename_i hk
      rw [ih]
      constructor
      · intro h k hs
        rw [hcons, if_neg (by rintro rfl; exact hk hs)]
        exact h k hs
      · intro h k hs
        have := h k hs
        rw [hcons, if_neg (by rintro rfl; exact hk hs)] at this
        exact this

theorem members_sound {fld : Str → Option (Reader Json)} {other : Reader Json} {R : Str → Json → Str → Prop}
    (hf : ∀ k f, fld k = some f → Reads f (R k)) (ho : ∀ k, fld k = none → Reads other (R k)) :
    ∀ (n : Nat) (b : Bool) (seen : List Str) (s : Str) (kvs : List (Str × Json)) (r : Str), Narrow s →
      got (members fld other n b seen) s = some (kvs, r) →
      ∃ t r', PairsOf R b kvs t ∧ Fresh fld seen kvs ∧ s = t ++ r ∧ r = '}' :: r' := by
  intro n
  induction n with
  | zero => intro b seen s kvs r _ h; simp [members] at h
  | succ n ih =>
    intro b seen s kvs r hn h
    have step : ∀ (f : Reader Json) (k : Str) (w w' u r1 : Str) (seen' : List Str), Reads f (R k) → Ws w → Ws w' →
        CharsText k u → s = w ++ (sep b ++ (w' ++ '"' :: (wide u ++ '"' :: r1))) →
        (∀ kvs, Fresh fld seen' kvs → ∀ v, Fresh fld seen ((k, v) :: kvs)) →
        got (do
          colon
          let v ← f
          let kvs ← members fld other n false seen'
          pure ((k, v) :: kvs)) r1 = some (kvs, r) →
        ∃ t r', PairsOf R b kvs t ∧ Fresh fld seen kvs ∧ s = t ++ r ∧ r = '}' :: r' := by
      intro f k w w' u r1 seen' hf hw hw' hu hs hfr h
      have hn1 : Narrow r1 := by
        rw [hs] at hn
        exact hn.of_append.2.of_append.2.of_append.2.of_cons.of_append.2.of_cons
      simp only [got_bind, Option.bind_eq_some_iff, got_pure, Option.some.injEq, Prod.mk.injEq] at h
      obtain ⟨⟨_, r2⟩, h2, ⟨v, r3⟩, h3, ⟨kvs', r4⟩, h4, rfl, rfl⟩ := h
      obtain ⟨w1, hw1, rfl⟩ := colon_sound h2
      have hn2 := hn1.of_append.2.of_cons
      obtain ⟨w2, t, hw2, ht, e⟩ := hf.sound hn2 h3
      simp only at e h4
      subst e
      obtain ⟨t', r', hp, hfresh, e4, er⟩ := ih _ _ _ _ _ hn2.of_append.2 h4
      subst e4
      refine ⟨_, r', .more b k v kvs' w w' u w1 w2 t t' hw hw' hu hw1 hw2 ht hp, hfr _ hfresh v, ?_, er⟩
      rw [hs]
      simp
    unfold members at h
    simp only [got_bind, Option.bind_eq_some_iff] at h
    obtain ⟨⟨o, r1⟩, h1, h⟩ := h
    have hk := nextKey_sound hn h1
    cases o with
    | none =>
      simp only [got_pure, Option.some.injEq, Prod.mk.injEq] at h
      obtain ⟨rfl, rfl⟩ := h
      obtain ⟨w, r', hw, rfl, e⟩ := hk
      exact ⟨w, r', .close b w hw, trivial, by rw [e], e⟩
    | some k =>
      obtain ⟨w, w', u, hw, hw', hu, hs⟩ := hk
      simp only at h
      split at h
      · rename_i f hfk
        split at h
        · simp at h
        · rename_i hseen
          refine step f k w w' u r1 (k :: seen) (hf k f hfk) hw hw' hu hs ?_ h
          intro kvs hfr v
          unfold Fresh
          rw [if_pos (by rw [hfk]; rfl)]
          exact ⟨hseen, hfr⟩
      · rename_i hfk
        refine step other k w w' u r1 seen (ho k hfk) hw hw' hu hs ?_ h
        intro kvs hfr v
        unfold Fresh
        rw [if_neg (by rw [hfk]; simp)]
        exact hfr

theorem members_complete {fld : Str → Option (Reader Json)} {other : Reader Json} {R : Str → Json → Str → Prop}
    (hf : ∀ k f, fld k = some f → Reads f (R k)) (ho : ∀ k, fld k = none → Reads other (R k)) :
    ∀ {b : Bool} {kvs : List (Str × Json)} {t : Str}, PairsOf R b kvs t → ∀ (n : Nat) (seen : List Str) (r : Str),
      Fresh fld seen kvs → t.length < n →
      got (members fld other n b seen) (t ++ '}' :: r) = some (kvs, '}' :: r) := by
  intro b kvs t hp
  induction hp with
  | close b w hw =>
    intro n seen r _ hlen
    obtain ⟨n, rfl⟩ : ∃ m, n = m + 1 := ⟨n - 1, by omega⟩
    unfold members
    simp [nextKey_none b hw r]
  | more b k v kvs w w' u w1 w2 t rest hw hw' hu hw1 hw2 hv hrest ih =>
    intro n seen r hfr hlen
    obtain ⟨n, rfl⟩ : ∃ m, n = m + 1 := ⟨n - 1, by omega⟩
    simp only [List.length_append, List.length_cons] at hlen
    have h1 := nextKey_some b hw hw' hu (w1 ++ ':' :: (w2 ++ (t ++ (rest ++ '}' :: r))))
    have h2 := colon_complete hw1 (w2 ++ (t ++ (rest ++ '}' :: r)))
    have e : w ++ (sep b ++ (w' ++ '"' :: (wide u ++ '"' :: (w1 ++ ':' :: (w2 ++ (t ++ rest)))))) ++ '}' :: r =
        w ++ (sep b ++ (w' ++ '"' :: (wide u ++ '"' :: (w1 ++ ':' :: (w2 ++ (t ++ (rest ++ '}' :: r))))))) := by simp
    have step : ∀ (f : Reader Json) (seen' : List Str), Reads f (R k) → Fresh fld seen' kvs →
        got (do
          colon
          let v ← f
          let kvs ← members fld other n false seen'
          pure ((k, v) :: kvs)) (w1 ++ ':' :: (w2 ++ (t ++ (rest ++ '}' :: r)))) = some ((k, v) :: kvs, '}' :: r) := by
      intro f seen' hf hfr
      have h3 := hf.complete (r := rest ++ '}' :: r) hw2 hv (pairsOf_ends hrest r)
      rw [List.append_assoc] at h3
      simp only [got_bind, h2, Option.bind_some, h3, ih n seen' r hfr (by omega), got_pure]
    unfold members
    rw [e]
    simp only [got_bind, h1, Option.bind_some]
    unfold Fresh at hfr
    split
    · rename_i f hfk
      rw [if_pos (by rw [hfk]; rfl)] at hfr
      rw [if_neg hfr.1]
      exact step f _ (hf k f hfk) hfr.2
    · rename_i hfk
      rw [if_neg (by rw [hfk]; simp)] at hfr
      exact step other _ (ho k hfk) hfr

/-- The members of a struct, as far as its reader is concerned. -/
def Members (fld : Str → Option (Reader Json)) (required : List Str) (kvs : List (Str × Json)) : Prop :=
  Fresh fld [] kvs ∧ ∀ k ∈ required, k ∈ kvs.map Prod.fst

theorem visitMap_iff {fld : Str → Option (Reader Json)} {other : Reader Json} {R : Str → Json → Str → Prop}
    (hf : ∀ k f, fld k = some f → Reads f (R k)) (ho : ∀ k, fld k = none → Reads other (R k)) {required : List Str}
    {s r : Str} {kvs : List (Str × Json)} :
    (Narrow s → got (after (visitMap fld other required) endMap) s = some (kvs, r) →
      ∃ t, PairsOf R true kvs t ∧ Members fld required kvs ∧ s = t ++ '}' :: r) ∧
    ((∃ t, PairsOf R true kvs t ∧ Members fld required kvs ∧ s = t ++ '}' :: r) →
      got (after (visitMap fld other required) endMap) s = some (kvs, r)) := by
  have hfind : ∀ kvs : List (Str × Json), (required.find? fun k => !(kvs.map Prod.fst).contains k) = none ↔
      ∀ k ∈ required, k ∈ kvs.map Prod.fst := by
    intro kvs
    simp only [List.find?_eq_none, Bool.not_eq_true', List.contains_iff_mem, Bool.not_eq_false]
  rw [got_after]
  unfold visitMap
  simp only [got_bind, got_fueled]
  constructor
  · intro hn h
    simp only [Option.bind_eq_some_iff, Option.map_eq_some_iff, Prod.mk.injEq] at h
    obtain ⟨⟨kvs', r1⟩, ⟨⟨kvs'', r2⟩, h1, h2⟩, ⟨_, r3⟩, h3, rfl, rfl⟩ := h
    obtain ⟨t, r', hp, hfr, e1, e2⟩ := members_sound hf ho _ _ _ _ _ _ hn h1
    simp only at h2
    split at h2
    · simp at h2
    · rename_i hreq
      simp only [got_pure, Option.some.injEq, Prod.mk.injEq] at h2
      obtain ⟨rfl, rfl⟩ := h2
      rw [e2, endMap_cons] at h3
      simp only [Option.some.injEq, Prod.mk.injEq, true_and] at h3
      subst h3
      exact ⟨t, hp, ⟨hfr, (hfind _).1 hreq⟩, by rw [e1, e2]⟩
  · rintro ⟨t, hp, ⟨hfr, hreq⟩, rfl⟩
    rw [members_complete hf ho hp _ [] r hfr (by simp only [List.length_append]; omega)]
    simp only [Option.bind_some, (hfind kvs).2 hreq, got_pure, endMap_cons, Option.map_some]

/-! ### Arrays -/

/-- Elements read by one reader each. -/
inductive Slotted : Bool → List (Json → Str → Prop) → List Json → Str → Prop
  | nil (b : Bool) : Slotted b [] [] []
  | cons (b : Bool) (R : Json → Str → Prop) (Rs : List (Json → Str → Prop)) (x : Json) (xs : List Json)
      (w w' t rest : Str) : Ws w → Ws w' → R x t → Slotted false Rs xs rest →
      Slotted b (R :: Rs) (x :: xs) (w ++ (sep b ++ (w' ++ (t ++ rest))))

theorem visitSeq_sound {name : Str} {total : Nat} : ∀ (fs : List (Reader Json)) (Rs : List (Json → Str → Prop)) (i : Nat),
    List.Forall₂ Reads fs Rs → ∀ (s : Str) (vs : List Json) (r : Str), Narrow s →
      got (visitSeq name total i fs) s = some (vs, r) → ∃ t, Slotted (decide (i = 0)) Rs vs t ∧ s = t ++ r := by
  intro fs
  induction fs with
  | nil =>
    intro Rs i hR s vs r _ h
    cases hR
    simp only [visitSeq, got_pure, Option.some.injEq, Prod.mk.injEq] at h
    obtain ⟨rfl, rfl⟩ := h
    exact ⟨[], .nil _, rfl⟩
  | cons f fs ih =>
    intro Rs i hR s vs r hn h
    cases hR with
    | @cons _ R _ Rs hR hRs =>
    unfold visitSeq at h
    simp only [got_bind, Option.bind_eq_some_iff] at h
    obtain ⟨⟨o, r1⟩, h1, h⟩ := h
    have hi := nextItem_sound h1
    cases o with
    | false => simp at h
    | true =>
      simp only [if_true] at hi h
      obtain ⟨w, w', hw, hw', rfl⟩ := hi
      have hn1 := hn.of_append.2.of_append.2.of_append.2
      simp only [got_bind, Option.bind_eq_some_iff, got_pure, Option.some.injEq, Prod.mk.injEq] at h
      obtain ⟨⟨v, r2⟩, h2, ⟨vs', r3⟩, h3, rfl, rfl⟩ := h
      obtain ⟨w2, t, hw2, ht, e⟩ := hR.sound hn1 h2
      simp only at e h3
      subst e
      obtain ⟨t', hs, e⟩ := ih Rs (i + 1) hRs _ _ _ hn1.of_append.2 h3
      subst e
      rw [show decide (i + 1 = 0) = false by simp] at hs
      exact ⟨_, .cons _ R Rs v vs' w (w' ++ w2) t t' hw (Ws.append hw' hw2) ht hs, by simp⟩

theorem slotted_ends {Rs : List (Json → Str → Prop)} {xs : List Json} {t w : Str} (h : Slotted false Rs xs t) (hw : Ws w)
    (r : Str) : Ends (t ++ (w ++ ']' :: r)) := by
  cases h with
  | nil => exact ws_ends hw (by decide)
  | cons _ R Rs x xs w0 w' t rest hw0 =>
    have := ws_ends (c := ',') (t := w' ++ (t ++ rest) ++ (w ++ ']' :: r)) hw0 (by decide)
    simpa [sep] using this

theorem visitSeq_complete {name : Str} {total : Nat} {w : Str} (hw : Ws w) (r : Str) : ∀ (fs : List (Reader Json))
    (Rs : List (Json → Str → Prop)) (i : Nat), List.Forall₂ Reads fs Rs →
    (∀ R ∈ Rs, ∀ x t, R x t → ∃ c t', t = c :: t' ∧ isWs c = false ∧ c ≠ ']') →
    ∀ (vs : List Json) (t : Str), Slotted (decide (i = 0)) Rs vs t →
      got (visitSeq name total i fs) (t ++ (w ++ ']' :: r)) = some (vs, w ++ ']' :: r) := by
  intro fs
  induction fs with
  | nil =>
    intro Rs i hR _ vs t h
    cases hR
    cases h
    simp [visitSeq]
  | cons f fs ih =>
    intro Rs i hR hc vs t h
    cases hR with
    | @cons _ R _ Rs hR hRs =>
    cases h with
    | cons _ _ _ x xs w0 w' t rest hw0 hw' ht hrest =>
    obtain ⟨c, t', rfl, c1, c2⟩ := hc R (by simp) x t ht
    have h1 := nextItem_true (decide (i = 0)) hw0 hw' c1 c2 (t' ++ (rest ++ (w ++ ']' :: r)))
    have h2 := hR.complete (w := []) (r := rest ++ (w ++ ']' :: r)) Ws.nil ht (slotted_ends hrest hw r)
    simp only [List.nil_append, List.cons_append] at h2
    have h3 := ih Rs (i + 1) hRs (fun R hR => hc R (by simp [hR])) xs rest (by simpa using hrest)
    unfold visitSeq
    simp only [List.append_assoc, List.cons_append, got_bind, h1, Option.bind_some, if_true, h2, h3, got_pure]

theorem seq_iff {name : Str} {total : Nat} {fs : List (Reader Json)} {Rs : List (Json → Str → Prop)}
    (hR : List.Forall₂ Reads fs Rs) (hc : ∀ R ∈ Rs, ∀ x t, R x t → ∃ c t', t = c :: t' ∧ isWs c = false ∧ c ≠ ']')
    {s r : Str} {vs : List Json} :
    (Narrow s → got (after (visitSeq name total 0 fs) endSeq) s = some (vs, r) →
      ∃ t w, Slotted true Rs vs t ∧ Ws w ∧ s = t ++ (w ++ ']' :: r)) ∧
    ((∃ t w, Slotted true Rs vs t ∧ Ws w ∧ s = t ++ (w ++ ']' :: r)) →
      got (after (visitSeq name total 0 fs) endSeq) s = some (vs, r)) := by
  rw [got_after]
  constructor
  · intro hn h
    simp only [Option.bind_eq_some_iff, Option.map_eq_some_iff, Prod.mk.injEq] at h
    obtain ⟨⟨vs', r1⟩, h1, ⟨_, r2⟩, h2, rfl, rfl⟩ := h
    obtain ⟨t, ht, e⟩ := visitSeq_sound fs Rs 0 hR s _ _ hn h1
    obtain ⟨w, hw, e2⟩ := endSeq_sound h2
    exact ⟨t, w, ht, hw, by rw [e, ← e2]⟩
  · rintro ⟨t, w, ht, hw, rfl⟩
    rw [visitSeq_complete hw r fs Rs 0 hR hc vs t ht]
    simp [endSeq_complete hw r]

end Reading
end Oid4vci
