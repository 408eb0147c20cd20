import Verif.Spec.Path
import Verif.Lemmas.Shortest

/-!
What the message of an error with a path tells (C135).
-/

namespace Oid4vci

open Spec

/-- C135, as it should be: the message tells where the value is and what is wrong with it. -/
def C135_statement : Prop :=
  ∀ (skips : List Segment → Bool), (∀ p, skips p = true → ¬ Known p) → ∀ (p p' : List Segment) (o o' : Str),
    Known p → Known p' → ValidationError.ofPath skips p o = .ofPath skips p' o' → p.map step = p'.map step ∧ o = o'

theorem shown_text {skips : List Segment → Bool} (h : ∀ p, skips p = true → ¬ Known p) {p : List Segment} (hp : Known p)
    (o : Str) : ValidationError.ofPath skips p o = .any (pathText p ++ (str! ": " ++ o)) := by
  unfold ValidationError.ofPath pathErrorText
  rw [if_neg fun h' => h p h' hp]

/-- C135. A member whose name has a dot is told like a member of a member. -/
theorem C135_dotted (skips : List Segment → Bool) (h : ∀ p, skips p = true → ¬ Known p) (a b o : Str) :
    ValidationError.ofPath skips [.map (a ++ '.' :: b)] o = .ofPath skips [.map a, .map b] o := by
  rw [shown_text h ⟨_, List.mem_singleton.2 rfl, by simp⟩, shown_text h ⟨.map a, by simp, by simp⟩]
  simp [pathText, Segment.text, Segment.next]

/-- C135. A member whose name ends in brackets is told like an element of a member. -/
theorem C135_brackets (skips : List Segment → Bool) (h : ∀ p, skips p = true → ¬ Known p) (a o : Str) (i : Nat) :
    ValidationError.ofPath skips [.map (a ++ '[' :: (Json.natDigits i ++ [']']))] o = .ofPath skips [.map a, .seq i] o := by
  rw [shown_text h ⟨_, List.mem_singleton.2 rfl, by simp⟩, shown_text h ⟨.map a, by simp, by simp⟩]
  simp [pathText, Segment.text, Segment.next]

/-- C135. A name with a colon and a space moves words between name and message. -/
theorem C135_colon (skips : List Segment → Bool) (h : ∀ p, skips p = true → ¬ Known p) (a b o : Str) :
    ValidationError.ofPath skips [.map (a ++ (str! ": " ++ b))] o = .ofPath skips [.map a] (b ++ (str! ": " ++ o)) := by
  rw [shown_text h ⟨_, List.mem_singleton.2 rfl, by simp⟩, shown_text h ⟨_, List.mem_singleton.2 rfl, by simp⟩]
  simp [pathText, Segment.text]

/-- C135 is violated. -/
theorem C135_refuted : ¬ C135_statement := by
  intro h
  have := (h (fun p => p.all (· == .unknown)) (by
      rintro p hp ⟨s, hs, hn⟩
      exact hn (by simpa using List.all_eq_true.1 hp s hs)) [.map (str! "a.b")] [.map (str! "a"), .map (str! "b")] [] []
    ⟨_, List.mem_singleton.2 rfl, by simp⟩ ⟨.map (str! "a"), by simp, by simp⟩
    (C135_dotted _ (by
      rintro p hp ⟨s, hs, hn⟩
      exact hn (by simpa using List.all_eq_true.1 hp s hs)) (str! "a") (str! "b") [])).1
  exact absurd this (by decide)

/-- What ends a segment. -/
def Stops (r : Str) : Prop := ∃ c t, r = c :: t ∧ c ∈ ['.', '[', ':']

theorem span_inj {P : Char → Prop} : ∀ {k k' r r' : Str}, (∀ c ∈ k, P c) → (∀ c ∈ k', P c) →
    (∃ c t, r = c :: t ∧ ¬ P c) → (∃ c t, r' = c :: t ∧ ¬ P c) → k ++ r = k' ++ r' → k = k' ∧ r = r' := by
  intro k
  induction k with
  | nil =>
    intro k' r r' _ h' ⟨c, t, hr, hc⟩ _ e
    cases k' with
    | nil => exact ⟨rfl, e⟩
    | cons d k' =>
      subst hr
      simp only [List.nil_append, List.cons_append, List.cons.injEq] at e
      exact absurd (h' c (by rw [e.1]; simp)) hc
  | cons a k ih =>
    intro k' r r' h h' hr ⟨c, t, hr', hc⟩ e
    cases k' with
    | nil =>
      subst hr'
      simp only [List.nil_append, List.cons_append, List.cons.injEq] at e
      exact absurd (h c (by rw [← e.1]; simp)) hc
    | cons d k' =>
      simp only [List.cons_append, List.cons.injEq] at e
      obtain ⟨e1, e2⟩ := ih (fun c hc => h c (by simp [hc])) (fun c hc => h' c (by simp [hc])) hr ⟨c, t, hr', hc⟩ e.2
      exact ⟨by rw [e.1, e1], e2⟩

theorem index_inj {i j : Nat} {r r' : Str} (h : Json.natDigits i ++ ']' :: r = Json.natDigits j ++ ']' :: r') :
    i = j ∧ r = r' := by
  obtain ⟨h1, h2, -⟩ := Json.natDigits_props i
  obtain ⟨h1', h2', -⟩ := Json.natDigits_props j
  obtain ⟨e1, e2⟩ := span_inj (P := fun c => Json.isDigit c = true) h1 h1' ⟨_, _, rfl, by decide⟩ ⟨_, _, rfl, by decide⟩ h
  exact ⟨by rw [← h2, ← h2', e1], by simpa using e2⟩

/-- What is written for a name, or for an unknown segment. -/
theorem name_text {s : Segment} {n : Option Str} (h : step s = .inr n) : s.text = n.getD ['?'] ∧ s.next = '.' :: s.text := by
  cases s <;> cases h <;> exact ⟨rfl, rfl⟩

theorem name_plain {s : Segment} {n : Option Str} (h : step s = .inr n) (hp : ∀ k, step s = .inr (some k) → PlainName k) :
    s.text ≠ [] ∧ (∀ c ∈ s.text, c ∉ ['.', '[', ':']) ∧ (n = none ↔ s.text = ['?']) := by
  rw [(name_text h).1]
  cases n with
  | none => exact ⟨by decide, by decide, by simp⟩
  | some k =>
    obtain ⟨h1, h2, h3⟩ := hp k h
    exact ⟨h1, h3, by simpa using h2⟩

theorem segment_inj {s s' : Segment} {r r' : Str} (hp : ∀ k, step s = .inr (some k) → PlainName k)
    (hp' : ∀ k, step s' = .inr (some k) → PlainName k) (hr : Stops r) (hr' : Stops r')
    (h : s.text ++ r = s'.text ++ r') : step s = step s' ∧ r = r' := by
  have stop : ∀ {r : Str}, Stops r → ∃ c t, r = c :: t ∧ ¬ c ∉ ['.', '[', ':'] := by
    rintro r ⟨c, t, e, hc⟩
    exact ⟨c, t, e, fun h => h hc⟩
  have mixed : ∀ {s s' : Segment} {i : Nat} {n : Option Str} {r r' : Str}, step s = .inl i → step s' = .inr n →
      (∀ k, step s' = .inr (some k) → PlainName k) → s.text ++ r ≠ s'.text ++ r' := by
    intro s s' i n r r' h1 h2 hp e
    obtain ⟨h3, h4, -⟩ := name_plain h2 hp
    obtain ⟨c, t, hc⟩ := List.exists_cons_of_ne_nil h3
    cases s <;> cases h1
    rw [hc] at e
    simp only [Segment.text, List.cons_append, List.cons.injEq] at e
    exact h4 c (by rw [hc]; simp) (by rw [← e.1]; simp)
  rcases h1 : step s with i | n <;> rcases h2 : step s' with j | n'
  · cases s <;> cases h1
    cases s' <;> cases h2
    simp only [Segment.text, List.cons_append, List.append_assoc, List.nil_append, List.cons.injEq, true_and] at h
    obtain ⟨rfl, rfl⟩ := index_inj h
    exact ⟨rfl, rfl⟩
  · exact absurd h (mixed h1 h2 hp')
  · exact absurd h.symm (mixed h2 h1 hp)
  · obtain ⟨-, h3, h4⟩ := name_plain h1 hp
    obtain ⟨-, h3', h4'⟩ := name_plain h2 hp'
    obtain ⟨e, rfl⟩ := span_inj (P := fun c => c ∉ ['.', '[', ':']) h3 h3' (stop hr) (stop hr') h
    refine ⟨?_, rfl⟩
    have t1 := (name_text h1).1
    have t2 := (name_text h2).1
    cases n with
    | none =>
      have := h4'.2 (by rw [← e]; exact h4.1 rfl)
      rw [this]
    | some k =>
      cases n' with
      | none => have := h4.2 (by rw [e]; exact h4'.1 rfl); cases this
      | some k' =>
        simp only [Option.getD_some] at t1 t2
        rw [← t1, ← t2, e]

theorem next_stops (s : Segment) (r : Str) : Stops (s.next ++ r) := by
  cases s <;> exact ⟨_, _, rfl, by simp⟩

theorem tail_stops (ss : List Segment) (o : Str) : Stops (ss.flatMap Segment.next ++ (str! ": " ++ o)) := by
  cases ss with
  | nil => exact ⟨_, _, rfl, by simp⟩
  | cons s ss => rw [List.flatMap_cons, List.append_assoc]; exact next_stops _ _

theorem next_inj {s s' : Segment} {r r' : Str} (hp : ∀ k, step s = .inr (some k) → PlainName k)
    (hp' : ∀ k, step s' = .inr (some k) → PlainName k) (hr : Stops r) (hr' : Stops r')
    (h : s.next ++ r = s'.next ++ r') : step s = step s' ∧ r = r' := by
  have e : s.text ++ r = s'.text ++ r' := by
    rcases h1 : step s with i | n <;> rcases h2 : step s' with j | n'
    · cases s <;> cases h1
      cases s' <;> cases h2
      exact h
    · rw [(name_text h2).2] at h
      cases s <;> cases h1
      simp [Segment.next, Segment.text] at h
    · rw [(name_text h1).2] at h
      cases s' <;> cases h2
      simp [Segment.next, Segment.text] at h
    · rw [(name_text h1).2, (name_text h2).2] at h
      simpa using h
  exact segment_inj hp hp' hr hr' e

theorem tail_inj : ∀ {ss ss' : List Segment} {o o' : Str}, PlainPath ss → PlainPath ss' →
    ss.flatMap Segment.next ++ (str! ": " ++ o) = ss'.flatMap Segment.next ++ (str! ": " ++ o') →
    ss.map step = ss'.map step ∧ o = o' := by
  intro ss
  induction ss with
  | nil =>
    intro ss' o o' _ _ h
    cases ss' with
    | nil => exact ⟨rfl, List.append_cancel_left h⟩
    | cons s ss' => cases s <;> simp [Segment.next, Segment.text] at h
  | cons s ss ih =>
    intro ss' o o' hp hp' h
    cases ss' with
    | nil => cases s <;> simp [Segment.next, Segment.text] at h
    | cons s' ss' =>
      rw [List.flatMap_cons, List.flatMap_cons, List.append_assoc, List.append_assoc] at h
      obtain ⟨e1, e2⟩ := next_inj (hp s (by simp)) (hp' s' (by simp)) (tail_stops _ _) (tail_stops _ _) h
      obtain ⟨e3, e4⟩ := ih (fun t ht => hp t (by simp [ht])) (fun t ht => hp' t (by simp [ht])) e2
      exact ⟨by rw [List.map_cons, List.map_cons, e1, e3], e4⟩

/-- C135, what holds. If no name on the way has a dot, an opening bracket or a colon, is empty or a mere question mark,
the message tells where the value is and what is wrong with it. Missing: the other names. -/
theorem C135_partial (skips : List Segment → Bool) (h : ∀ p, skips p = true → ¬ Known p) (p p' : List Segment) (o o' : Str)
    (hk : Known p) (hk' : Known p') (hp : PlainPath p) (hp' : PlainPath p')
    (he : ValidationError.ofPath skips p o = .ofPath skips p' o') : p.map step = p'.map step ∧ o = o' := by
  rw [shown_text h hk, shown_text h hk', ValidationError.any.injEq] at he
  obtain ⟨s, ss, rfl⟩ : ∃ s ss, p = s :: ss := by
    obtain ⟨s, hs, -⟩ := hk
    exact List.exists_cons_of_ne_nil (List.ne_nil_of_mem hs)
  obtain ⟨s', ss', rfl⟩ : ∃ s ss, p' = s :: ss := by
    obtain ⟨s, hs, -⟩ := hk'
    exact List.exists_cons_of_ne_nil (List.ne_nil_of_mem hs)
  unfold pathText at he
  rw [List.append_assoc, List.append_assoc] at he
  obtain ⟨e1, e2⟩ := segment_inj (hp s (by simp)) (hp' s' (by simp)) (tail_stops _ _) (tail_stops _ _) he
  obtain ⟨e3, e4⟩ := tail_inj (fun t ht => hp t (by simp [ht])) (fun t ht => hp' t (by simp [ht])) e2
  exact ⟨by rw [List.map_cons, List.map_cons, e1, e3], e4⟩

/-- C135. Whatever the path is, the message ends in what serde_json says, and has nothing in front if the path is left
out. -/
theorem C135_original (skips : List Segment → Bool) (p : List Segment) (o : Str) :
    ∃ t, ValidationError.ofPath skips p o = .any (t ++ o) ∧ (skips p = true ↔ t = []) := by
  unfold ValidationError.ofPath pathErrorText
  split
  · exact ⟨[], rfl, by simp [*]⟩
  · exact ⟨pathText p ++ str! ": ", by simp, by simp [*]⟩

namespace Ex

/-- The paths of which nothing is known. -/
def unknownPath (p : List Segment) : Bool := p.all (· == .unknown)

theorem unknownPath_known (p : List Segment) (h : unknownPath p = true) : ¬ Known p := by
  rintro ⟨s, hs, hn⟩
  exact hn (by simpa using List.all_eq_true.1 h s hs)

example : ValidationError.ofPath unknownPath [.map (str! "credentials_supported"), .seq 10, .map (str! "format")]
      (str! "missing field `types` at line 1 column 3") =
    .any (str! "credentials_supported[10].format: missing field `types` at line 1 column 3") := by decide
example : ValidationError.ofPath unknownPath [.seq 0, .enum (str! "Jwt"), .unknown, .seq 2] (str! "EOF") =
    .any (str! "[0].Jwt.?[2]: EOF") := by decide
example : ValidationError.ofPath unknownPath [.unknown, .unknown] (str! "EOF") = .any (str! "EOF") := by decide
example : ValidationError.ofPath unknownPath [] (str! "EOF") = .any (str! "EOF") := by decide

/-- The tenth element of the first list is told from every other plain path. -/
example (p : List Segment) (o : Str) (hk : Known p) (hp : PlainPath p)
    (h : ValidationError.ofPath unknownPath p o = .any (str! "[0][9]: EOF")) : p = [.seq 0, .seq 9] ∧ o = str! "EOF" := by
  have e : ValidationError.ofPath unknownPath [.seq 0, .seq 9] (str! "EOF") = .any (str! "[0][9]: EOF") := by decide
  obtain ⟨h1, h2⟩ := C135_partial unknownPath unknownPath_known p [.seq 0, .seq 9] o (str! "EOF") hk
    ⟨.seq 0, by simp, by simp⟩ hp (by
      intro s hs k hk
      simp only [List.mem_cons, List.not_mem_nil, or_false] at hs
      rcases hs with rfl | rfl <;> cases hk) (h.trans e.symm)
  refine ⟨?_, h2⟩
  match p, h1 with
  | [.seq i, .seq j], h1 =>
    simp only [List.map_cons, List.map_nil, step, List.cons.injEq, Sum.inl.injEq, and_true] at h1
    rw [h1.1, h1.2]

/-- The conditions on names are needed: an empty name in front of an index, and a name that is a question mark. -/
example : ValidationError.ofPath unknownPath [.map [], .seq 0] [] = .ofPath unknownPath [.seq 0] [] ∧
    ValidationError.ofPath unknownPath [.seq 0, .map ['?']] [] = .ofPath unknownPath [.seq 0, .unknown] [] := by decide

end Ex
end Oid4vci
