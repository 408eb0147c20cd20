import Verif.Lemmas.ReadingPlace

/-! No reader runs out of fuel. -/

namespace Oid4vci
namespace Reading

open Json

variable {α β : Type}

theorem ok_got {f : Reader α} {s r : Str} {a : α} (h : f s = (.ok a, r)) : got f s = some (a, r) := got_eq_some.2 h

/-! ### Skipping -/

theorem calm_skip : ∀ n, Calm (skip n) ∧ (∀ b, Calm (skipItems n b)) ∧ ∀ b, Calm (skipPairs n b) := by
  intro n
  induction n with
  | zero => exact ⟨calm_halt, fun _ => calm_halt, fun _ => calm_halt⟩
  | succ n ih =>
    obtain ⟨i1, i2, i3⟩ := ih
    have h1 := calm_skipString
    have h2 := calm_skipNumber
    have h3 := calm_skipKey
    have i2t := i2 true
    have i2f := i2 false
    have i3t := i3 true
    have i3f := i3 false
    refine ⟨?_, fun b => ?_, fun b => ?_⟩
    · rw [skip]; calm
    · rw [skipItems]; calm
    · rw [skipPairs]; cases b <;> simp only [if_true, Bool.false_eq_true, if_false] <;> calm

theorem skip_mono : ∀ n, Refines (skip n) (skip (n + 1)) ∧ (∀ b, Refines (skipItems n b) (skipItems (n + 1) b)) ∧
    ∀ b, Refines (skipPairs n b) (skipPairs (n + 1) b) := by
  intro n
  induction n with
  | zero => exact ⟨refines_halt _, fun _ => refines_halt _, fun _ => refines_halt _⟩
  | succ n ih =>
    obtain ⟨i1, i2, i3⟩ := ih
    have i2t := i2 true
    have i2f := i2 false
    have i3t := i3 true
    have i3f := i3 false
    refine ⟨?_, fun b => ?_, fun b => ?_⟩
    · rw [skip, skip]; refines
    · rw [skipItems, skipItems]; refines
    · rw [skipPairs, skipPairs]; cases b <;> simp only [if_true, Bool.false_eq_true, if_false] <;> refines

theorem skippedValue_cons {t : Str} (h : Spec.SkippedValue t) : t ≠ [] := by
  intro e
  subst e
  generalize hn : ([] : Str) = t at h
  cases h with
  | number _ _ h =>
    subst hn
    rcases number_complete h (r := []) (by intro c hc; simp at hc) with ⟨t', e, -⟩ | ⟨c, t', e, -⟩ <;> cases e
  | string _ h => obtain ⟨t, -, rfl⟩ := h; cases hn
  | _ => cases hn

theorem skip_steps {n : Nat} {s r : Str} {a : Unit} (h : skip n s = (.ok a, r)) : r.length < s.length := by
  obtain ⟨w, t, -, ht, rfl⟩ := (skip_sound n).1 _ _ (ok_got h)
  have := List.length_pos_iff.2 (skippedValue_cons ht)
  simp only [List.length_append]
  omega

theorem skip_runs : ∀ n, (∀ s, 2 * s.length + 1 ≤ n → Runs (skip n) s) ∧
    (∀ b s, 2 * s.length + 2 ≤ n → Runs (skipItems n b) s) ∧ (∀ b s, 2 * s.length + 2 ≤ n → Runs (skipPairs n b) s) := by
  intro n
  induction n with
  | zero => exact ⟨fun s h => by omega, fun b s h => by omega, fun b s h => by omega⟩
  | succ n ih =>
    obtain ⟨i1, i2, i3⟩ := ih
    refine ⟨fun s h => ?_, fun b s h => ?_, fun b s h => ?_⟩
    · rw [skip]
      refine runs_bind (total_ws.runs s) ?_
      rintro _ _ ⟨⟩
      have hl := skipWs_len s
      rcases hsk : skipWs s with _ | ⟨c, t⟩
      · exact (total_ahead _).runs _
      rw [hsk] at hl
      simp only [List.length_cons] at hl
      simp only [List.head?_cons]
      have eat : ∀ {g : Reader Unit}, Runs g t → Runs (eat >>= fun _ => g) (c :: t) := fun hg => hg
      split
      · exact eat (total_skipString.runs _)
      split
      · exact eat (i2 _ _ (by omega))
      split
      · exact eat (i3 _ _ (by omega))
      split
      · exact eat (total_skipNumber.runs _)
      split
      · exact total_skipNumber.runs _
      split
      · exact eat ((total_ident _).runs _)
      split
      · exact eat ((total_ident _).runs _)
      split
      · exact eat ((total_ident _).runs _)
      · exact (total_ahead _).runs _
    · rw [skipItems]
      refine runs_bind (total_ws.runs s) ?_
      rintro _ _ ⟨⟩
      have hl := skipWs_len s
      rcases hsk : skipWs s with _ | ⟨c, t⟩
      · exact (total_ahead _).runs _
      rw [hsk] at hl
      simp only [List.length_cons] at hl
      simp only [List.head?_cons]
      split
      · exact total_eat.runs _
      split
      · refine runs_bind (i1 _ (by simp only [List.length_cons]; omega)) fun a r hr => ?_
        have := skip_steps hr
        simp only [List.length_cons] at this
        exact i2 _ _ (by omega)
      split
      · refine runs_bind (total_eat.runs _) ?_
        rintro _ _ ⟨⟩
        refine runs_bind (i1 _ (by simp only [List.tail_cons]; omega)) fun a r hr => ?_
        have := skip_steps hr
        simp only [List.tail_cons] at this
        exact i2 _ _ (by omega)
      · exact (total_ahead _).runs _
    · rw [skipPairs]
      refine runs_bind (total_ws.runs s) ?_
      rintro _ _ ⟨⟩
      have hl := skipWs_len s
      rcases hsk : skipWs s with _ | ⟨c, t⟩
      · exact (total_ahead _).runs _
      rw [hsk] at hl
      simp only [List.length_cons] at hl
      simp only [List.head?_cons]
      have step : ∀ u : Str, u.length ≤ s.length → Runs (do skipKey; skip n; skipPairs n false) u := by
        intro u hu
        refine runs_bind (total_skipKey.runs _) fun a r1 h1 => ?_
        have h1 := calm_skipKey.len u |> (fun h => by rw [h1] at h; exact h)
        simp only at h1
        refine runs_bind (i1 _ (by omega)) fun a r hr => ?_
        have := skip_steps hr
        exact i3 _ _ (by omega)
      split
      · exact total_eat.runs _
      split
      · cases b with
        | true => exact step _ (by simp only [List.length_cons]; omega)
        | false =>
          refine runs_bind (total_eat.runs _) ?_
          rintro _ _ ⟨⟩
          exact step _ (by simp only [List.tail_cons]; omega)
      · exact (total_ahead _).runs _

theorem calm_ignored : Calm ignored := by
  have : Calm (fueled skip) := calm_fueled (fun n => (skip_mono n).1) (fun n s h => (skip_runs n).1 s (by omega))
    fun n => (calm_skip n).1
  unfold ignored; calm

theorem total_ignored : Total ignored := by
  have : Total (fueled skip) := total_fueled (fun n s h => (skip_runs n).1 s (by omega))
  unfold ignored; total

/-! ### Values -/

theorem calm_colon : Calm colon := by unfold colon; calm
theorem total_colon : Total colon := by unfold colon; total
theorem calm_endMap : Calm endMap := by unfold endMap; calm
theorem total_endMap : Total endMap := by unfold endMap; total
theorem calm_endSeq : Calm endSeq := by unfold endSeq; calm
theorem total_endSeq : Total endSeq := by unfold endSeq; total

theorem calm_nextKey (b : Bool) : Calm (nextKey b) := by
  have := calm_string
  unfold nextKey
  cases b <;> simp only [if_true, Bool.false_eq_true, if_false] <;> calm

theorem total_nextKey (b : Bool) : Total (nextKey b) := by
  have := total_string
  unfold nextKey
  cases b <;> simp only [if_true, Bool.false_eq_true, if_false] <;> total

theorem calm_nextItem (b : Bool) : Calm (nextItem b) := by unfold nextItem; calm
theorem total_nextItem (b : Bool) : Total (nextItem b) := by unfold nextItem; total

theorem eat_then {g : Reader α} (hg : Calm g) {c : Char} {t r : Str} {a : α}
    (h : (eat >>= fun _ => g) (c :: t) = (.ok a, r)) : r.length ≤ t.length := by
  have h1 : g t = (.ok a, r) := h
  have := hg.len t
  rw [h1] at this
  exact this

theorem nextKey_steps {b : Bool} {s r k : Str} (h : nextKey b s = (.ok (some k), r)) : r.length < s.length := by
  have h := ok_got h
  have hl := skipWs_len s
  unfold nextKey at h
  simp only [got_bind, got_ws, Option.bind_some] at h
  rcases hsk : skipWs s with _ | ⟨c, t⟩
  · simp [hsk] at h
  rw [hsk] at h hl
  simp only [List.length_cons] at hl
  simp only [List.head?_cons] at h
  have step : ∀ u : Str, u.length ≤ s.length → got (do
      match ← ws with
      | none => ahead eofValue
      | some q =>
        if q = '"' then do
          eat
          let k ← string
          pure (some k)
        else if q = '}' then ahead trailingComma
        else ahead keyMustBeAString : Reader (Option Str)) u = some (some k, r) → r.length < s.length := by
    intro u hu h
    have hl' := skipWs_len u
    simp only [got_bind, got_ws, Option.bind_some] at h
    rcases hsk : skipWs u with _ | ⟨c, t⟩
    · simp [hsk] at h
    rw [hsk] at h hl'
    simp only [List.length_cons] at hl'
    simp only [List.head?_cons] at h
    split at h
    · simp only [got_bind, got_eat, Option.bind_some, List.tail_cons, Option.bind_eq_some_iff, got_pure,
        Option.some.injEq, Prod.mk.injEq] at h
      obtain ⟨⟨k', r'⟩, h1, -, rfl⟩ := h
      have := calm_string.len t
      rw [got_eq_some.1 h1] at this
      simp only at this ⊢
      omega
    · split at h <;> simp at h
  split at h
  · simp at h
  split at h
  · cases b with
    | true => exact step _ (by simp only [List.length_cons]; omega) h
    | false =>
      simp only [Bool.false_eq_true, if_false] at h
      have h1 := calm_string
      have := eat_then (by calm) (got_eq_some.1 h)
      omega
  · simp at h

theorem calm_value : ∀ n d, Calm (value n d) ∧ (∀ b, Calm (items n d b)) ∧ ∀ b, Calm (pairs n d b) := by
  intro n
  induction n with
  | zero => exact fun d => ⟨calm_halt, fun _ => calm_halt, fun _ => calm_halt⟩
  | succ n ih =>
    intro d
    have h1 := calm_string
    have h2 := calm_number true
    have h3 := calm_number false
    have h4 := calm_endMap
    have h5 := calm_endSeq
    have h6 := calm_colon
    refine ⟨?_, fun b => ?_, fun b => ?_⟩
    · rw [value.eq_def]
      simp only
      cases d with
      | zero => simp only; calm
      | succ d =>
        have i2 := (ih d).2.1 true
        have i3 := (ih d).2.2 true
        simp only; calm
    · have i1 := (ih d).1
      have i2 := (ih d).2.1 false
      have := calm_nextItem b
      rw [items]; calm
    · have i1 := (ih d).1
      have i2 := (ih d).2.2 false
      have := calm_nextKey b
      rw [pairs]; calm

theorem value_mono : ∀ n d, Refines (value n d) (value (n + 1) d) ∧ (∀ b, Refines (items n d b) (items (n + 1) d b)) ∧
    ∀ b, Refines (pairs n d b) (pairs (n + 1) d b) := by
  intro n
  induction n with
  | zero => exact fun d => ⟨refines_halt _, fun _ => refines_halt _, fun _ => refines_halt _⟩
  | succ n ih =>
    intro d
    refine ⟨?_, fun b => ?_, fun b => ?_⟩
    · rw [value.eq_def, value.eq_def]
      simp only
      cases d with
      | zero => simp only; refines
      | succ d =>
        have i2 := (ih d).2.1 true
        have i3 := (ih d).2.2 true
        simp only; refines
    · have i1 := (ih d).1
      have i2 := (ih d).2.1 false
      rw [items, items]; refines
    · have i1 := (ih d).1
      have i2 := (ih d).2.2 false
      rw [pairs, pairs]; refines

theorem integer_steps {s r ds : Str} (h : integer s = (.ok ds, r)) : r.length < s.length := by
  cases s with
  | nil => cases h
  | cons c s =>
    have h := ok_got h
    have := calm_digits.len s
    unfold integer at h
    simp only [got_bind, got_next, Option.bind_some, List.head?_cons, List.tail_cons] at h
    simp only [List.length_cons]
    split at h
    · simp only [got_bind, got_peek, Option.bind_some] at h
      split at h
      · split at h
        · simp at h
        · simp only [got_pure, Option.some.injEq, Prod.mk.injEq] at h; rw [← h.2]; omega
      · simp only [got_pure, Option.some.injEq, Prod.mk.injEq] at h; rw [← h.2]; omega
    split at h
    · simp only [got_bind, Option.bind_eq_some_iff, got_pure, Option.some.injEq, Prod.mk.injEq] at h
      obtain ⟨⟨ds', r'⟩, h1, -, rfl⟩ := h
      rw [got_eq_some.1 h1] at this
      simp only at this ⊢
      omega
    · simp at h

/-- What has been read leaves less. -/
theorem bind_steps {f : Reader α} {g : α → Reader β} (hf : ∀ s a r, f s = (.ok a, r) → r.length < s.length)
    (hg : ∀ a, Calm (g a)) {s r : Str} {b : β} (h : (f >>= g) s = (.ok b, r)) : r.length < s.length := by
  rw [run_bind] at h
  rcases hs : f s with ⟨a | ⟨m, l⟩ | _, r'⟩ <;> rw [hs] at h <;> simp only at h
  · have h1 := hf _ _ _ hs
    have h2 := (hg a).len r'
    rw [h] at h2
    simp only at h2
    omega
  · cases h
  · cases h

theorem number_steps {neg : Bool} {s r : Str} {j : Json} (h : number neg s = (.ok j, r)) : r.length < s.length := by
  unfold number at h
  refine bind_steps (fun s a r => integer_steps) (fun ds => ?_) h
  simp only
  calm
  all_goals exact calm_fraction _

theorem value_steps {n d : Nat} {s r : Str} {j : Json} (h : value n d s = (.ok j, r)) : r.length < s.length := by
  cases n with
  | zero => cases h
  | succ n =>
    rw [value.eq_def] at h
    simp only at h
    rw [run_bind] at h
    simp only [ws] at h
    have hl := skipWs_len s
    rcases hsk : skipWs s with _ | ⟨c, t⟩
    · rw [hsk] at h; cases h
    rw [hsk] at h hl
    simp only [List.head?_cons, List.length_cons] at h hl
    have eat : ∀ {g : Unit → Reader Json}, Calm (g ()) → (eat >>= g) (c :: t) = (.ok j, r) → r.length < s.length := by
      intro g hg hr
      have h1 : g () t = (.ok j, r) := hr
      have := hg.len t
      rw [h1] at this
      simp only at this
      omega
    have h1 := calm_string
    have h2 := calm_number true
    have h3 := calm_number false
    have h4 := calm_endMap
    have h5 := calm_endSeq
    split at h
    · exact eat (by calm) h
    split at h
    · cases d with
      | zero => cases h
      | succ d =>
        have i2 := (calm_value n d).2.1 true
        exact eat (by calm) h
    split at h
    · cases d with
      | zero => cases h
      | succ d =>
        have i2 := (calm_value n d).2.2 true
        exact eat (by calm) h
    split at h
    · exact eat (by calm) h
    split at h
    · have := number_steps h
      simp only [List.length_cons] at this
      omega
    split at h
    · exact eat (by calm) h
    split at h
    · exact eat (by calm) h
    split at h
    · exact eat (by calm) h
    · cases h

theorem value_runs : ∀ n d, (∀ s, 2 * s.length + 1 ≤ n → Runs (value n d) s) ∧
    (∀ b s, 2 * s.length + 2 ≤ n → Runs (items n d b) s) ∧ (∀ b s, 2 * s.length + 2 ≤ n → Runs (pairs n d b) s) := by
  intro n
  induction n with
  | zero => exact fun d => ⟨fun s h => by omega, fun b s h => by omega, fun b s h => by omega⟩
  | succ n ih =>
    intro d
    refine ⟨fun s h => ?_, fun b s h => ?_, fun b s h => ?_⟩
    · rw [value.eq_def]
      simp only
      refine runs_bind (total_ws.runs s) ?_
      rintro _ _ ⟨⟩
      have hl := skipWs_len s
      rcases hsk : skipWs s with _ | ⟨c, t⟩
      · exact (total_ahead _).runs _
      rw [hsk] at hl
      simp only [List.length_cons] at hl
      simp only [List.head?_cons]
      have eat : ∀ {g : Reader Json}, Runs g t → Runs (eat >>= fun _ => g) (c :: t) := fun hg => hg
      have h1 := total_string
      have h2 := total_number true
      split
      · exact eat (Total.runs (by total) _)
      split
      · cases d with
        | zero => exact (total_ahead _).runs _
        | succ d =>
          exact eat (runs_bind (runs_after ((ih d).2.1 _ _ (by omega)) total_endSeq.runs) fun _ _ _ => (total_pure _).runs _)
      split
      · cases d with
        | zero => exact (total_ahead _).runs _
        | succ d =>
          exact eat (runs_bind (runs_after ((ih d).2.2 _ _ (by omega)) total_endMap.runs) fun _ _ _ => (total_pure _).runs _)
      split
      · exact eat (Total.runs (by total) _)
      split
      · exact (total_number _).runs _
      split
      · exact eat (Total.runs (by total) _)
      split
      · exact eat (Total.runs (by total) _)
      split
      · exact eat (Total.runs (by total) _)
      · exact (total_ahead _).runs _
    · rw [items]
      refine runs_bind ((total_nextItem b).runs s) fun o r hr => ?_
      have hl := (calm_nextItem b).len s
      rw [hr] at hl
      simp only at hl
      split
      · refine runs_bind ((ih d).1 _ (by omega)) fun v r1 h1 => ?_
        have := value_steps h1
        exact runs_bind ((ih d).2.1 _ _ (by omega)) fun _ _ _ => (total_pure _).runs _
      · exact (total_pure _).runs _
    · rw [pairs]
      refine runs_bind ((total_nextKey b).runs s) fun o r hr => ?_
      cases o with
      | none => exact (total_pure _).runs _
      | some k =>
        have hl := nextKey_steps hr
        refine runs_bind (total_colon.runs _) fun _ r1 h1 => ?_
        have h2 := calm_colon.len r
        rw [h1] at h2
        simp only at h2
        refine runs_bind ((ih d).1 _ (by omega)) fun v r1 h1 => ?_
        have := value_steps h1
        exact runs_bind ((ih d).2.2 _ _ (by omega)) fun _ _ _ => (total_pure _).runs _

theorem calm_any (d : Nat) : Calm (fueled fun n => value n d) :=
  calm_fueled (fun n => (value_mono n d).1) (fun n s h => (value_runs n d).1 s (by omega)) fun n => (calm_value n d).1

theorem total_any (d : Nat) : Total (fueled fun n => value n d) :=
  total_fueled fun n s h => (value_runs n d).1 s (by omega)

/-! ### Typed readers -/

theorem calm_wrongType (T : Texts) (e : Str) : Calm (wrongType T e : Reader α) := by
  have h1 := calm_string
  have h2 := calm_number true
  have h3 := calm_number false
  unfold wrongType; calm

theorem total_wrongType (T : Texts) (e : Str) : Total (wrongType T e : Reader α) := by
  have h1 := total_string
  have h2 := total_number true
  have h3 := total_number false
  unfold wrongType; total

theorem calm_visitStr (T : Texts) (e : Str) {visit : Str → Reader α} (h : ∀ s, Calm (visit s)) :
    Calm (visitStr T e visit) := by
  have h1 := calm_string
  have h2 := calm_wrongType (α := α) T e
  unfold visitStr; calm

theorem total_visitStr (T : Texts) (e : Str) {visit : Str → Reader α} (h : ∀ s, Total (visit s)) :
    Total (visitStr T e visit) := by
  have h1 := total_string
  have h2 := total_wrongType (α := α) T e
  unfold visitStr; total

theorem calm_unit (T : Texts) : Calm (unit T) := by
  have h2 := calm_wrongType (α := Unit) T (str! "unit")
  unfold unit; calm
theorem total_unit (T : Texts) : Total (unit T) := by
  have h2 := total_wrongType (α := Unit) T (str! "unit")
  unfold unit; total

theorem calm_option {f : Reader Json} (hf : Calm f) : Calm (option f) := by unfold option; calm
theorem total_option {f : Reader Json} (hf : Total f) : Total (option f) := by unfold option; total

theorem calm_variantName (T : Texts) (names : List Str) : Calm (variantName T names) :=
  calm_visitStr _ _ fun s => by calm
theorem total_variantName (T : Texts) (names : List Str) : Total (variantName T names) :=
  total_visitStr _ _ fun s => by total

theorem calm_variant (T : Texts) (names : List Str) : Calm (variant T names) := by
  have h1 := calm_variantName T names
  have h2 := calm_unit T
  have h3 := calm_colon
  unfold variant; calm
theorem total_variant (T : Texts) (names : List Str) : Total (variant T names) := by
  have h1 := total_variantName T names
  have h2 := total_unit T
  have h3 := total_colon
  unfold variant; total

theorem calm_members {fld : Str → Option (Reader Json)} {other : Reader Json} (hf : ∀ k f, fld k = some f → Calm f)
    (ho : Calm other) : ∀ n b seen, Calm (members fld other n b seen) := by
  intro n
  induction n with
  | zero => exact fun _ _ => calm_halt
  | succ n ih =>
    intro b seen
    have h1 := calm_nextKey b
    have h2 := calm_colon
    unfold members
    calm
    · exact hf _ _ (by assumption)
    · exact ih _ _
    · exact ih _ _

theorem members_mono {fld : Str → Option (Reader Json)} {other : Reader Json} : ∀ n b seen,
    Refines (members fld other n b seen) (members fld other (n + 1) b seen) := by
  intro n
  induction n with
  | zero => exact fun _ _ => refines_halt _
  | succ n ih =>
    intro b seen
    rw [members, members]
    refines
    all_goals exact ih _ _

theorem members_runs {fld : Str → Option (Reader Json)} {other : Reader Json}
    (hf : ∀ k f, fld k = some f → Calm f ∧ Total f) (ho : Calm other ∧ Total other) : ∀ n b seen s, 2 * s.length + 2 ≤ n →
      Runs (members fld other n b seen) s := by
  intro n
  induction n with
  | zero => intro b seen s h; omega
  | succ n ih =>
    intro b seen s h
    unfold members
    refine runs_bind ((total_nextKey b).runs s) fun o r hr => ?_
    cases o with
    | none => exact (total_pure _).runs _
    | some k =>
      have hl := nextKey_steps hr
      have step : ∀ (f : Reader Json) seen', Calm f ∧ Total f → Runs (do
          colon
          let v ← f
          let kvs ← members fld other n false seen'
          pure ((k, v) :: kvs)) r := by
        intro f seen' hf
        refine runs_bind (total_colon.runs _) fun _ r1 h1 => ?_
        have h1 := calm_colon.len r |> (fun h => by rw [h1] at h; exact h)
        simp only at h1
        refine runs_bind (hf.2.runs _) fun v r2 h2 => ?_
        have h2 := hf.1.len r1 |> (fun h => by rw [h2] at h; exact h)
        simp only at h2
        exact runs_bind (ih _ _ _ (by omega)) fun _ _ _ => (total_pure _).runs _
      simp only
      split
      · split
        · exact (total_custom _).runs _
        · exact step _ _ (hf _ _ (by assumption))
      · exact step _ _ ho

theorem calm_visitMap {fld : Str → Option (Reader Json)} {other : Reader Json} {required : List Str}
    (hf : ∀ k f, fld k = some f → Calm f ∧ Total f) (ho : Calm other ∧ Total other) :
    Calm (visitMap fld other required) := by
  have : Calm (fueled fun n => members fld other n true []) :=
    calm_fueled (fun n => members_mono n _ _) (fun n s h => members_runs hf ho n _ _ s h)
      fun n => calm_members (fun k f h => (hf k f h).1) ho.1 n _ _
  unfold visitMap; calm

theorem total_visitMap {fld : Str → Option (Reader Json)} {other : Reader Json} {required : List Str}
    (hf : ∀ k f, fld k = some f → Calm f ∧ Total f) (ho : Calm other ∧ Total other) :
    Total (visitMap fld other required) := by
  have : Total (fueled fun n => members fld other n true []) :=
    total_fueled (fun n s h => members_runs hf ho n _ _ s h)
  unfold visitMap; total

theorem calm_visitSeq {name : Str} {total : Nat} : ∀ (fs : List (Reader Json)) (i : Nat), (∀ f ∈ fs, Calm f) →
    Calm (visitSeq name total i fs) := by
  intro fs
  induction fs with
  | nil => intro i _; exact calm_pure _
  | cons f fs ih =>
    intro i h
    have h1 := h f (by simp)
    have h2 := ih (i + 1) fun f hf => h f (by simp [hf])
    have h3 := calm_nextItem (decide (i = 0))
    unfold visitSeq; calm

theorem total_visitSeq {name : Str} {total : Nat} : ∀ (fs : List (Reader Json)) (i : Nat), (∀ f ∈ fs, Total f) →
    Total (visitSeq name total i fs) := by
  intro fs
  induction fs with
  | nil => intro i _; exact total_pure _
  | cons f fs ih =>
    intro i h
    have h1 := h f (by simp)
    have h2 := ih (i + 1) fun f hf => h f (by simp [hf])
    have h3 := total_nextItem (decide (i = 0))
    unfold visitSeq; total

/-! ### Header and body -/

theorem good_text (T : Texts) : Calm (readText T) ∧ Total (readText T) :=
  ⟨calm_visitStr _ _ fun _ => calm_pure _, total_visitStr _ _ fun _ => total_pure _⟩

theorem good_time (x : Ext) (T : Texts) : Calm (readTime x T) ∧ Total (readTime x T) :=
  ⟨calm_visitStr _ _ fun _ => by calm, total_visitStr _ _ fun _ => by total⟩

theorem good_option {f : Reader Json} (h : Calm f ∧ Total f) : Calm (option f) ∧ Total (option f) :=
  ⟨calm_option h.1, total_option h.2⟩

theorem good_headerField {T : Texts} (k : Str) (f : Reader Json) (h : headerField T k = some f) : Calm f ∧ Total f := by
  unfold headerField at h
  split at h
  · cases h; exact good_text T
  · split at h
    · cases h; exact ⟨calm_variant _ _, total_variant _ _⟩
    · cases h

theorem good_bodyFields {x : Ext} {T : Texts} : ∀ p ∈ bodyFields x T, Calm p.2 ∧ Total p.2 := by
  intro p hp
  unfold bodyFields at hp
  simp only [List.mem_cons, List.not_mem_nil, or_false] at hp
  rcases hp with rfl | rfl | rfl | rfl | rfl | rfl | rfl
  · exact good_option (good_text T)
  · exact good_text T
  · exact good_option (good_text T)
  · exact good_time x T
  · exact good_text T
  · exact good_option (good_time x T)
  · exact good_option (good_time x T)

theorem good_bodyField {x : Ext} {T : Texts} (k : Str) (f : Reader Json) (h : bodyField x T k = some f) :
    Calm f ∧ Total f := by
  unfold bodyField at h
  simp only [Option.map_eq_some_iff] at h
  obtain ⟨p, hp, rfl⟩ := h
  exact good_bodyFields p (List.mem_of_find?_eq_some hp)

theorem calm_header (T : Texts) : Calm (document (readHeader T)) := by
  have h1 := calm_visitMap (required := [str! "typ", str! "alg"]) (good_headerField (T := T))
    ⟨calm_any (Json.maxDepth - 1), total_any (Json.maxDepth - 1)⟩
  have h2 := calm_endMap
  have h3 := calm_wrongType (α := Json) T (str! "struct ProofJwtHeader")
  unfold document readHeader
  calm

theorem total_header (T : Texts) : Total (document (readHeader T)) := by
  have h1 := total_visitMap (required := [str! "typ", str! "alg"]) (good_headerField (T := T))
    ⟨calm_any (Json.maxDepth - 1), total_any (Json.maxDepth - 1)⟩
  have h2 := total_endMap
  have h3 := total_wrongType (α := Json) T (str! "struct ProofJwtHeader")
  unfold document readHeader
  total

theorem calm_body (x : Ext) (T : Texts) : Calm (document (readBody x T)) := by
  have h1 := calm_visitMap (required := [str! "aud", str! "iat", str! "nonce"]) (good_bodyField (x := x) (T := T))
    ⟨calm_ignored, total_ignored⟩
  have h2 := calm_endMap
  have h4 := calm_endSeq
  have h5 := calm_visitSeq (name := str! "ProofJwtBody") (total := 7) ((bodyFields x T).map Prod.snd) 0
    (by intro f hf; obtain ⟨p, hp, rfl⟩ := List.mem_map.1 hf; exact (good_bodyFields p hp).1)
  have h3 := calm_wrongType (α := Json) T (str! "struct ProofJwtBody")
  unfold document readBody
  calm

theorem total_body (x : Ext) (T : Texts) : Total (document (readBody x T)) := by
  have h1 := total_visitMap (required := [str! "aud", str! "iat", str! "nonce"]) (good_bodyField (x := x) (T := T))
    ⟨calm_ignored, total_ignored⟩
  have h2 := total_endMap
  have h4 := total_endSeq
  have h5 := total_visitSeq (name := str! "ProofJwtBody") (total := 7) ((bodyFields x T).map Prod.snd) 0
    (by intro f hf; obtain ⟨p, hp, rfl⟩ := List.mem_map.1 hf; exact (good_bodyFields p hp).2)
  have h3 := total_wrongType (α := Json) T (str! "struct ProofJwtBody")
  unfold document readBody
  total

end Reading
end Oid4vci
