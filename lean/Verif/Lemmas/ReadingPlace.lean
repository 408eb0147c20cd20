import Verif.Lemmas.UnreadableDoc

/-! Readers stop where they are, and what they say depends on what they have seen. -/

namespace Oid4vci
namespace Reading

open Json

variable {α β : Type}

/-- An error of some kind. -/
def Fails (o : Out α × Str) : Prop := ∃ m l r, o = (.err m l, r)

/-- What a reader makes of `p ++ q` without coming close to `q` it makes of `p ++ q'` as well. -/
def Near (f : Reader α) (p q q' : Str) : Out α × Str → Prop
  | (.ok a, r) => q.length < r.length → ∃ r0, r = r0 ++ q ∧ f (p ++ q') = (.ok a, r0 ++ q')
  | (.err _ none, r) => q.length < r.length → Fails (f (p ++ q'))
  | (.err _ (some l), _) => q.length < l → Fails (f (p ++ q'))
  | (.stuck, _) => True

/-- A reader that does not look far ahead. -/
structure Calm (f : Reader α) : Prop where
  len : ∀ s, (f s).2.length ≤ s.length
  place : ∀ s m l r, f s = (.err m (some l), r) → l ≤ s.length
  near : ∀ p q q', Near f p q q' (f (p ++ q))

theorem calm_pure (a : α) : Calm (pure a : Reader α) where
  len s := Nat.le_refl _
  place s m l r h := by cases h
  near p q q' := fun h => ⟨p, rfl, rfl⟩

theorem calm_bind {f : Reader α} {g : α → Reader β} (hf : Calm f) (hg : ∀ a, Calm (g a)) : Calm (f >>= g) := by
  have hrun : ∀ s, (f >>= g) s = match f s with
      | (.ok a, r) => g a r
      | (.err m l, r) => (.err m l, r)
      | (.stuck, r) => (.stuck, r) := fun s => rfl
  constructor
  · intro s
    rw [hrun]
    have := hf.len s
    rcases h : f s with ⟨a | ⟨m, l⟩ | _, r⟩ <;> rw [h] at this <;> simp only at this ⊢
    · exact Nat.le_trans ((hg a).len r) this
    · exact this
    · exact this
  · intro s m l r h
    rw [hrun] at h
    have := hf.len s
    rcases h' : f s with ⟨a | ⟨m', l'⟩ | _, r'⟩ <;> rw [h'] at this h <;> simp only at this h
    · exact Nat.le_trans ((hg a).place _ _ _ _ h) this
    · cases h
      exact hf.place _ _ _ _ h'
    · cases h
  · intro p q q'
    have hn := hf.near p q q'
    rw [hrun]
    have hfail : Fails (f (p ++ q')) → Fails ((f >>= g) (p ++ q')) := by
      rintro ⟨m, l, r, h⟩
      exact ⟨m, l, r, by rw [hrun, h]⟩
    rcases h : f (p ++ q) with ⟨a | ⟨m, l⟩ | _, r⟩ <;> rw [h] at hn <;> simp only at hn ⊢
    · have hlen := (hg a).len r
      have hpl := (hg a).place r
      have hnear := (hg a).near
      have key : q.length < r.length → ∃ r0, r = r0 ++ q ∧ (f >>= g) (p ++ q') = g a (r0 ++ q') := by
        intro hq
        obtain ⟨r0, h1, h2⟩ := hn hq
        exact ⟨r0, h1, by rw [hrun, h2]⟩
      rcases h2 : g a r with ⟨b | ⟨m, _ | l⟩ | _, r'⟩ <;> rw [h2] at hlen <;> simp only [Near] at hlen ⊢
      · intro hq
        obtain ⟨r0, e, hr⟩ := key (by omega)
        have := hnear r0 q q'
        rw [← e, h2] at this
        obtain ⟨r1, e1, e2⟩ := this hq
        exact ⟨r1, e1, by rw [hr, e2]⟩
      · intro hq
        obtain ⟨r0, e, hr⟩ := key (by omega)
        have := hnear r0 q q'
        rw [← e, h2] at this
        rw [hr]
        exact this hq
      · intro hq
        have := hpl _ _ _ h2
        obtain ⟨r0, e, hr⟩ := key (by omega)
        have := hnear r0 q q'
        rw [← e, h2] at this
        rw [hr]
        exact this hq
    · cases l with
      | none => exact fun hq => hfail (hn hq)
      | some l => exact fun hq => hfail (hn hq)
    · trivial

theorem calm_peek : Calm peek where
  len s := Nat.le_refl _
  place s m l r h := by cases h
  near p q q' := by
    intro h
    cases p with
    | nil => simp at h
    | cons c p => exact ⟨c :: p, rfl, rfl⟩

theorem calm_eat : Calm eat where
  len s := by simp [eat]
  place s m l r h := by cases h
  near p q q' := by
    intro h
    cases p with
    | nil => simp only [List.nil_append, List.length_tail] at h; omega
    | cons c p => exact ⟨p, rfl, rfl⟩

theorem calm_next : Calm next where
  len s := by simp [next]
  place s m l r h := by cases h
  near p q q' := by
    intro h
    cases p with
    | nil => simp only [List.nil_append, List.length_tail] at h; omega
    | cons c p => exact ⟨p, rfl, rfl⟩

theorem skipWs_len (s : Str) : (skipWs s).length ≤ s.length := (List.dropWhile_sublist _).length_le

theorem skipWs_near {p q : Str} (h : q.length < (skipWs (p ++ q)).length) :
    ∃ c r, ∀ q', skipWs (p ++ q') = c :: r ++ q' := by
  induction p with
  | nil =>
    have := skipWs_len q
    simp only [List.nil_append] at h
    omega
  | cons x p ih =>
    by_cases hx : isWs x = true
    · have e : ∀ q, skipWs (x :: p ++ q) = skipWs (p ++ q) := by
        intro q
        unfold skipWs; rw [List.cons_append, List.dropWhile_cons_of_pos hx]
      rw [e] at h
      obtain ⟨c, r, hr⟩ := ih h
      exact ⟨c, r, fun q' => by rw [e, hr]⟩
    · exact ⟨x, p, fun q' => by unfold skipWs; rw [List.cons_append, List.dropWhile_cons_of_neg hx]⟩

theorem calm_ws : Calm ws where
  len s := skipWs_len s
  place s m l r h := by cases h
  near p q q' := by
    intro h
    obtain ⟨c, r, hr⟩ := skipWs_near h
    exact ⟨c :: r, hr q, by simp only [ws, hr]; rfl⟩

theorem calm_here (m : Str) : Calm (here m : Reader α) where
  len s := Nat.le_refl _
  place s m' l r h := by cases h; exact Nat.le_refl _
  near p q q' := fun _ => ⟨_, _, _, rfl⟩

theorem calm_ahead (m : Str) : Calm (ahead m : Reader α) where
  len s := Nat.le_refl _
  place s m' l r h := by cases h; omega
  near p q q' := fun _ => ⟨_, _, _, rfl⟩

theorem calm_custom (m : Str) : Calm (custom m : Reader α) where
  len s := Nat.le_refl _
  place s m' l r h := by cases h
  near p q q' := fun _ => ⟨_, _, _, rfl⟩

theorem calm_halt : Calm (halt : Reader α) where
  len s := Nat.le_refl _
  place s m' l r h := by cases h
  near p q q' := trivial

theorem calm_settle {f : Reader α} (hf : Calm f) : Calm (settle f) := by
  have hrun : ∀ s, settle f s = match f s with
      | (.err m none, r) => (.err m (some r.length), r)
      | o => o := fun s => rfl
  have hfail : ∀ s, Fails (f s) → Fails (settle f s) := by
    rintro s ⟨m, l, r, h⟩
    rw [hrun, h]
    cases l <;> exact ⟨_, _, _, rfl⟩
  constructor
  · intro s
    rw [hrun]
    have := hf.len s
    rcases h : f s with ⟨a | ⟨m, _ | l⟩ | _, r⟩ <;> rw [h] at this <;> exact this
  · intro s m l r h
    rw [hrun] at h
    have := hf.len s
    rcases h' : f s with ⟨a | ⟨m', _ | l'⟩ | _, r'⟩ <;> rw [h'] at this h <;> simp only at h this <;> cases h
    · exact this
    · exact hf.place _ _ _ _ h'
  · intro p q q'
    have hn := hf.near p q q'
    rw [hrun]
    rcases h : f (p ++ q) with ⟨a | ⟨m, _ | l⟩ | _, r⟩ <;> rw [h] at hn <;> simp only [Near] at hn ⊢
    · intro hq
      obtain ⟨r0, h1, h2⟩ := hn hq
      exact ⟨r0, h1, by rw [hrun, h2]⟩
    · exact fun hq => hfail _ (hn hq)
    · exact fun hq => hfail _ (hn hq)

theorem calm_after {f : Reader α} {c : Reader Unit} (hf : Calm f) (hc : Calm c) : Calm (after f c) := by
  have hrun : ∀ s, after f c s = match f s with
      | (.ok a, r) =>
        match c r with
        | (.ok _, r') => (.ok a, r')
        | (.err m l, r') => (.err m l, r')
        | (.stuck, r') => (.stuck, r')
      | (.err m l, r) => (.err m l, (c r).2)
      | (.stuck, r) => (.stuck, r) := fun s => rfl
  have hfail : ∀ s, Fails (f s) → Fails (after f c s) := by
    rintro s ⟨m, l, r, h⟩
    rw [hrun, h]
    exact ⟨_, _, _, rfl⟩
  have hbind : ∀ s, (∃ a r, f s = (.ok a, r)) → after f c s = (f >>= fun a => c >>= fun _ => pure a) s := by
    rintro s ⟨a, r, h⟩
    rw [hrun, h]
    show _ = match f s with
      | (.ok a, r) => (c >>= fun _ => pure a) r
      | (.err m l, r) => (.err m l, r)
      | (.stuck, r) => (.stuck, r)
    rw [h]
    dsimp only
    rw [run_bind]
    rcases c r with ⟨b | ⟨m, l⟩ | _, r'⟩ <;> rfl
  have hb : Calm (f >>= fun a => c >>= fun _ => (pure a : Reader α)) :=
    calm_bind hf fun a => calm_bind hc fun _ => calm_pure a
  constructor
  · intro s
    rcases h : f s with ⟨a | ⟨m, l⟩ | _, r⟩
    · rw [hbind s ⟨a, r, h⟩]; exact hb.len s
    · have h1 := hf.len s
      rw [h] at h1
      rw [hrun, h]
      exact Nat.le_trans (hc.len r) h1
    · have h1 := hf.len s
      rw [h] at h1
      rw [hrun, h]
      exact h1
  · intro s m l r hs
    rcases h : f s with ⟨a | ⟨m', l'⟩ | _, r'⟩
    · rw [hbind s ⟨a, r', h⟩] at hs; exact hb.place _ _ _ _ hs
    · rw [hrun, h] at hs
      cases hs
      exact hf.place _ _ _ _ h
    · rw [hrun, h] at hs
      cases hs
  · intro p q q'
    rcases h : f (p ++ q) with ⟨a | ⟨m, l⟩ | _, r⟩
    · have hn := hb.near p q q'
      rw [← hbind _ ⟨a, r, h⟩] at hn
      have hfn := hf.near p q q'
      rw [h] at hfn
      simp only [Near] at hfn
      have h2 : q.length < r.length → after f c (p ++ q') = (f >>= fun a => c >>= fun _ => pure a) (p ++ q') := by
        intro hq
        obtain ⟨r0, -, h2⟩ := hfn hq
        exact hbind _ ⟨a, _, h2⟩
      have hr : after f c (p ++ q) = match c r with
        | (.ok _, r') => (.ok a, r')
        | (.err m l, r') => (.err m l, r')
        | (.stuck, r') => (.stuck, r') := by rw [hrun, h]
      have hl := hc.len r
      rcases h3 : c r with ⟨b | ⟨m, _ | l⟩ | _, r'⟩ <;> rw [h3] at hr hl <;> rw [hr] at hn ⊢ <;>
        simp only [Near] at hn hl ⊢
      · intro hq; rw [h2 (by omega)]; exact hn hq
      · intro hq; rw [h2 (by omega)]; exact hn hq
      · intro hq
        have := hc.place _ _ _ _ h3
        rw [h2 (by omega)]
        exact hn hq
    · have hn := hf.near p q q'
      rw [h] at hn
      rw [hrun, h]
      have hl := hc.len r
      cases l with
      | none =>
        simp only [Near] at hn ⊢
        exact fun hq => hfail _ (hn (by omega))
      | some l => exact fun hq => hfail _ (hn hq)
    · rw [hrun, h]
      trivial

theorem calm_digits : Calm digits where
  len s := by
    unfold digits
    exact (List.dropWhile_sublist _).length_le
  place s m l r h := by cases h
  near p q q' := by
    intro h
    have key : ∀ p : Str, q.length < (List.dropWhile isDigit (p ++ q)).length →
        ∃ t r, ∀ q', List.takeWhile isDigit (p ++ q') = t ∧ List.dropWhile isDigit (p ++ q') = r ++ q' := by
      intro p
      induction p with
      | nil =>
        intro h
        have := (List.dropWhile_sublist (l := q) isDigit).length_le
        simp only [List.nil_append] at h
        omega
      | cons c p ih =>
        intro h
        by_cases hc : isDigit c = true
        · simp only [List.cons_append, List.dropWhile_cons, List.takeWhile_cons, hc, if_true] at h ⊢
          obtain ⟨t, r, hr⟩ := ih h
          exact ⟨c :: t, r, fun q' => ⟨by rw [(hr q').1], (hr q').2⟩⟩
        · simp only [List.cons_append, List.dropWhile_cons, List.takeWhile_cons, hc]
          exact ⟨[], c :: p, fun q' => ⟨rfl, rfl⟩⟩
    obtain ⟨t, r, hr⟩ := key p h
    refine ⟨r, (hr q).2, ?_⟩
    unfold digits
    rw [(hr q').1, (hr q').2, (hr q).1]

theorem calm_congr {f g : Reader α} (h : ∀ s, f s = g s) (hf : Calm f) : Calm g := by
  rw [← (funext h : f = g)]; exact hf

theorem calm_ident : ∀ cs : Str, Calm (ident cs) := by
  intro cs
  induction cs with
  | nil => exact calm_pure ()
  | cons c cs ih =>
    unfold ident
    refine calm_bind calm_next fun o => ?_
    split
    · exact calm_here _
    · split
      · exact ih
      · exact calm_here _

/-- Readers built from readers. -/
macro "calm" : tactic => `(tactic| repeat' (first
  | with_reducible exact calm_pure _ | with_reducible exact calm_peek | with_reducible exact calm_next
  | with_reducible exact calm_eat | with_reducible exact calm_ws | with_reducible exact calm_here _
  | with_reducible exact calm_ahead _ | with_reducible exact calm_custom _ | with_reducible exact calm_halt
  | with_reducible exact calm_digits | with_reducible exact calm_ident _
  | with_reducible assumption | with_reducible apply calm_bind | with_reducible apply calm_settle
  | with_reducible apply calm_after | intro _ | split))

theorem calm_expDigits (limit : Option Nat) : ∀ n acc, Calm (expDigits limit n acc) := by
  intro n
  induction n with
  | zero => intro acc; exact calm_halt
  | succ n ih =>
    intro acc
    unfold expDigits
    simp only
    calm
    all_goals exact ih _

theorem calm_hexDigit : Calm hexDigit := by unfold hexDigit; calm

theorem calm_hexDigits : Calm hexDigits := by
  have := calm_hexDigit
  unfold hexDigits
  calm

theorem hexDigit_len {s r : Str} {p : Char × Nat} (h : hexDigit s = (.ok p, r)) : s.length = r.length + 1 := by
  have h : got hexDigit s = some (p, r) := by unfold got; rw [h]
  unfold hexDigit at h
  cases s with
  | nil => simp at h
  | cons c s =>
    simp only [got_bind, got_next, Option.bind_some, List.head?_cons, List.tail_cons] at h
    split at h
    · simp only [got_pure, Option.some.injEq, Prod.mk.injEq] at h
      rw [← h.2]
      rfl
    · simp at h

theorem hexDigits_len {s r : Str} {p : Str × Nat} (h : hexDigits s = (.ok p, r)) : s.length = r.length + 4 := by
  have h : got hexDigits s = some (p, r) := by unfold got; rw [h]
  unfold hexDigits at h
  simp only [got_bind, Option.bind_eq_some_iff, got_pure, Option.some.injEq, Prod.mk.injEq] at h
  obtain ⟨⟨a, r1⟩, h1, ⟨b, r2⟩, h2, ⟨c, r3⟩, h3, ⟨d, r4⟩, h4, -, rfl⟩ := h
  have h1 := hexDigit_len (got_eq_some.1 h1)
  have h2 := hexDigit_len (got_eq_some.1 h2)
  have h3 := hexDigit_len (got_eq_some.1 h3)
  have h4 := hexDigit_len (got_eq_some.1 h4)
  simp only at h1 h2 h3 h4 ⊢
  omega

theorem calm_hexEscape : Calm hexEscape where
  len s := by
    unfold hexEscape
    split
    · simp
    · exact calm_hexDigits.len s
  place s m l r h := by
    unfold hexEscape at h
    split at h
    · cases h; omega
    · exact calm_hexDigits.place _ _ _ _ h
  near p q q' := by
    have hfail : Fails (hexDigits (p ++ q')) → Fails (hexEscape (p ++ q')) := by
      intro h
      unfold hexEscape
      split
      · exact ⟨_, _, _, rfl⟩
      · exact h
    have hn := calm_hexDigits.near p q q'
    have e : hexEscape (p ++ q) = if (p ++ q).length < 4 then (.err eofString (some 0), []) else hexDigits (p ++ q) := rfl
    rw [e]
    split
    · intro h; omega
    · rcases h : hexDigits (p ++ q) with ⟨a | ⟨m, _ | l⟩ | _, r⟩ <;> rw [h] at hn <;> simp only [Near] at hn ⊢
      · intro hq
        obtain ⟨r0, h1, h2⟩ := hn hq
        refine ⟨r0, h1, ?_⟩
        have := hexDigits_len h2
        unfold hexEscape
        rw [if_neg (by omega), h2]
      · exact fun hq => hfail (hn hq)
      · exact fun hq => hfail (hn hq)

theorem calm_escape : Calm escape := by
  have := calm_hexEscape
  unfold escape
  calm

theorem calm_scan : ∀ n, Calm (scan n) := by
  intro n
  induction n with
  | zero => exact calm_halt
  | succ n ih =>
    have := calm_escape
    unfold scan
    calm

/-! ### Fuel -/

/-- The second reader does what the first one does unless that gets stuck. -/
structure Refines (f g : Reader α) : Prop where
  run : ∀ s, (f s).1 ≠ .stuck → g s = f s

theorem refines_refl (f : Reader α) : Refines f f := ⟨fun _ _ => rfl⟩

theorem refines_halt (g : Reader α) : Refines halt g := ⟨fun _ h => absurd rfl h⟩

theorem refines_trans {f g h : Reader α} (h1 : Refines f g) (h2 : Refines g h) : Refines f h := by
  refine ⟨fun s hs => ?_⟩
  have e := h1.run s hs
  rw [h2.run s (by rw [e]; exact hs), e]

theorem refines_bind {f f' : Reader α} {g g' : α → Reader β} (hf : Refines f f') (hg : ∀ a, Refines (g a) (g' a)) :
    Refines (f >>= g) (f' >>= g') := by
  refine ⟨fun s h => ?_⟩
  rw [run_bind, run_bind] at *
  rcases hs : f s with ⟨a | ⟨m, l⟩ | _, r⟩
  · rw [hf.run s (by rw [hs]; simp), hs]
    rw [hs] at h
    exact (hg a).run r h
  · rw [hf.run s (by rw [hs]; simp), hs]
  · rw [hs] at h
    exact absurd rfl h

theorem refines_after {f f' : Reader α} {c : Reader Unit} (hf : Refines f f') : Refines (after f c) (after f' c) := by
  refine ⟨fun s h => ?_⟩
  unfold after at *
  have : (f s).1 ≠ .stuck := by
    intro e
    rcases hs : f s with ⟨a | ⟨m, l⟩ | _, r⟩ <;> rw [hs] at e h <;> simp at e
    exact h rfl
  rw [hf.run s this]

macro "refines" : tactic => `(tactic| repeat' (first
  | with_reducible exact refines_refl _ | with_reducible exact refines_halt _
  | with_reducible assumption | with_reducible apply refines_bind | with_reducible apply refines_after
  | intro _ | split))

theorem expDigits_mono (limit : Option Nat) : ∀ n acc, Refines (expDigits limit n acc) (expDigits limit (n + 1) acc) := by
  intro n
  induction n with
  | zero => intro acc; exact refines_halt _
  | succ n ih =>
    intro acc
    rw [expDigits, expDigits]
    simp only
    refines
    all_goals exact ih _

theorem scan_mono : ∀ n, Refines (scan n) (scan (n + 1)) := by
  intro n
  induction n with
  | zero => exact refines_halt _
  | succ n ih =>
    rw [scan, scan]
    refines

/-- A reader that does not get stuck on these octets. -/
def Runs (f : Reader α) (s : Str) : Prop := (f s).1 ≠ .stuck

/-- A reader that never gets stuck. -/
structure Total (f : Reader α) : Prop where
  runs : ∀ s, Runs f s

theorem runs_bind {f : Reader α} {g : α → Reader β} {s : Str} (hf : Runs f s)
    (hg : ∀ a r, f s = (.ok a, r) → Runs (g a) r) : Runs (f >>= g) s := by
  unfold Runs at *
  rw [run_bind]
  rcases h : f s with ⟨a | ⟨m, l⟩ | _, r⟩
  · exact hg a r h
  · simp
  · rw [h] at hf; exact absurd rfl hf

theorem runs_after {f : Reader α} {c : Reader Unit} {s : Str} (hf : Runs f s)
    (hg : ∀ r, Runs c r) : Runs (after f c) s := by
  unfold Runs at *
  unfold after
  rcases h : f s with ⟨a | ⟨m, l⟩ | _, r⟩
  · have := hg r
    rcases h : c r with ⟨a | ⟨m, l⟩ | _, r'⟩
    · simp [h]
    · simp [h]
    · rw [h] at this; exact absurd rfl this
  · simp
  · rw [h] at hf; exact absurd rfl hf

theorem total_bind {f : Reader α} {g : α → Reader β} (hf : Total f) (hg : ∀ a, Total (g a)) : Total (f >>= g) :=
  ⟨fun s => runs_bind (hf.runs s) fun a r _ => (hg a).runs r⟩

theorem total_pure (a : α) : Total (pure a : Reader α) := ⟨fun _ h => by cases h⟩
theorem total_peek : Total peek := ⟨fun _ h => by cases h⟩
theorem total_eat : Total eat := ⟨fun _ h => by cases h⟩
theorem total_next : Total next := ⟨fun _ h => by cases h⟩
theorem total_ws : Total ws := ⟨fun _ h => by cases h⟩
theorem total_here (m : Str) : Total (here m : Reader α) := ⟨fun _ h => by cases h⟩
theorem total_ahead (m : Str) : Total (ahead m : Reader α) := ⟨fun _ h => by cases h⟩
theorem total_custom (m : Str) : Total (custom m : Reader α) := ⟨fun _ h => by cases h⟩
theorem total_digits : Total digits := ⟨fun _ h => by cases h⟩

theorem total_settle {f : Reader α} (hf : Total f) : Total (settle f) := by
  refine ⟨fun s => ?_⟩
  have := hf.runs s
  unfold Runs settle at *
  rcases h : f s with ⟨a | ⟨m, _ | l⟩ | _, r⟩ <;> rw [h] at this <;> simp_all

theorem total_after {f : Reader α} {c : Reader Unit} (hf : Total f) (hc : Total c) : Total (after f c) :=
  ⟨fun s => runs_after (hf.runs s) hc.runs⟩

theorem total_ident : ∀ cs : Str, Total (ident cs) := by
  intro cs
  induction cs with
  | nil => exact total_pure ()
  | cons c cs ih =>
    unfold ident
    refine total_bind total_next fun o => ?_
    split
    · exact total_here _
    · split
      · exact ih
      · exact total_here _

macro "total" : tactic => `(tactic| repeat' (first
  | with_reducible exact total_pure _ | with_reducible exact total_peek | with_reducible exact total_next
  | with_reducible exact total_eat | with_reducible exact total_ws | with_reducible exact total_here _
  | with_reducible exact total_ahead _ | with_reducible exact total_custom _
  | with_reducible exact total_digits | with_reducible exact total_ident _
  | with_reducible assumption | with_reducible apply total_bind | with_reducible apply total_settle
  | with_reducible apply total_after | intro _ | split))

theorem refines_le {loop : Nat → Reader α} (hm : ∀ n, Refines (loop n) (loop (n + 1))) {n m : Nat} (h : n ≤ m) :
    Refines (loop n) (loop m) := by
  induction h with
  | refl => exact refines_refl _
  | step _ ih => exact refines_trans ih (hm _)

theorem fueled_eq {loop : Nat → Reader α} (hm : ∀ n, Refines (loop n) (loop (n + 1)))
    (hr : ∀ n s, 2 * s.length + 2 ≤ n → Runs (loop n) s) {n : Nat} {s : Str} (h : 2 * s.length + 2 ≤ n) :
    fueled loop s = loop n s :=
  ((refines_le hm h).run s (hr _ s (Nat.le_refl _))).symm

theorem total_fueled {loop : Nat → Reader α} (hr : ∀ n s, 2 * s.length + 2 ≤ n → Runs (loop n) s) :
    Total (fueled loop) := ⟨fun s => hr _ s (Nat.le_refl _)⟩

theorem calm_fueled {loop : Nat → Reader α} (hm : ∀ n, Refines (loop n) (loop (n + 1)))
    (hr : ∀ n s, 2 * s.length + 2 ≤ n → Runs (loop n) s) (hc : ∀ n, Calm (loop n)) : Calm (fueled loop) where
  len s := (hc _).len s
  place s m l r h := (hc _).place s m l r h
  near p q q' := by
    have h1 := fueled_eq hm hr (n := max (2 * (p ++ q).length + 2) (2 * (p ++ q').length + 2)) (s := p ++ q) (Nat.le_max_left _ _)
    have h2 := fueled_eq hm hr (n := max (2 * (p ++ q).length + 2) (2 * (p ++ q').length + 2)) (s := p ++ q') (Nat.le_max_right _ _)
    have := (hc (max (2 * (p ++ q).length + 2) (2 * (p ++ q').length + 2))).near p q q'
    rw [h1]
    unfold Near at this ⊢
    rw [h2]
    exact this

/-! ### Numbers -/

theorem expDigits_runs (limit : Option Nat) : ∀ n acc s, 2 * s.length + 2 ≤ n → Runs (expDigits limit n acc) s := by
  intro n
  induction n with
  | zero => intro acc s h; omega
  | succ n ih =>
    intro acc s h
    unfold expDigits
    refine runs_bind (total_peek.runs s) ?_
    rintro _ _ ⟨⟩
    cases s with
    | nil => exact (total_pure _).runs _
    | cons c s =>
      simp only [List.head?_cons]
      split
      · refine runs_bind (total_eat.runs _) ?_
        rintro _ _ ⟨⟩
        simp only [List.tail_cons]
        split
        · exact (total_here _).runs _
        · refine runs_bind (ih _ _ (by simp only [List.length_cons] at h; omega)) fun a r _ => ?_
          exact (total_pure _).runs _
      · exact (total_pure _).runs _

theorem calm_exponent (ds fs : Str) : Calm (exponent ds fs) := by
  have : ∀ lim acc, Calm (fueled fun n => expDigits lim n acc) := fun lim acc =>
    calm_fueled (fun n => expDigits_mono lim n acc) (fun n s h => expDigits_runs lim n acc s h)
      (fun n => calm_expDigits lim n acc)
  unfold exponent
  calm
  all_goals exact this _ _

theorem total_exponent (ds fs : Str) : Total (exponent ds fs) := by
  have : ∀ lim acc, Total (fueled fun n => expDigits lim n acc) := fun lim acc =>
    total_fueled fun n s h => expDigits_runs lim n acc s h
  unfold exponent
  total
  all_goals exact this _ _

theorem calm_fraction (ds : Str) : Calm (fraction ds) := by
  unfold fraction
  calm
  all_goals exact calm_exponent _ _

theorem total_fraction (ds : Str) : Total (fraction ds) := by
  unfold fraction
  total
  all_goals exact total_exponent _ _

theorem calm_integer : Calm integer := by unfold integer; calm
theorem total_integer : Total integer := by unfold integer; total

theorem calm_number (neg : Bool) : Calm (number neg) := by
  have h1 := calm_integer
  unfold number
  simp only
  calm
  all_goals exact calm_fraction _

theorem total_number (neg : Bool) : Total (number neg) := by
  have h1 := total_integer
  unfold number
  simp only
  total
  all_goals exact total_fraction _

theorem calm_skipExponent : Calm skipExponent := by unfold skipExponent; calm
theorem total_skipExponent : Total skipExponent := by unfold skipExponent; total

theorem calm_skipFraction : Calm skipFraction := by
  have := calm_skipExponent
  unfold skipFraction; calm
theorem total_skipFraction : Total skipFraction := by
  have := total_skipExponent
  unfold skipFraction; total

theorem calm_skipNumber : Calm skipNumber := by
  have := calm_skipFraction
  unfold skipNumber; calm
theorem total_skipNumber : Total skipNumber := by
  have := total_skipFraction
  unfold skipNumber; total

/-! ### Strings -/

theorem total_hexDigit : Total hexDigit := by unfold hexDigit; total
theorem total_hexDigits : Total hexDigits := by
  have := total_hexDigit
  unfold hexDigits; total

theorem total_hexEscape : Total hexEscape := by
  refine ⟨fun s => ?_⟩
  have := total_hexDigits.runs s
  unfold Runs hexEscape at *
  split
  · simp
  · exact this

theorem total_escape : Total escape := by
  have := total_hexEscape
  unfold escape; total

theorem next_cons {s : Str} {c : Char} {r : Str} (h : next s = (.ok (some c), r)) : s = c :: r := by
  cases s with
  | nil => cases h
  | cons x s => cases h; rfl

theorem scan_runs : ∀ n s, 2 * s.length + 2 ≤ n → Runs (scan n) s := by
  intro n
  induction n with
  | zero => intro s h; omega
  | succ n ih =>
    intro s h
    unfold scan
    refine runs_bind (total_next.runs s) ?_
    rintro o r ho
    cases o with
    | none => exact (total_here _).runs _
    | some c =>
      have e := next_cons ho
      subst e
      simp only [List.length_cons] at h
      simp only
      split
      · exact (total_pure _).runs _
      · split
        · refine runs_bind (total_escape.runs _) fun e r' he => ?_
          have := calm_escape.len r
          rw [he] at this
          simp only at this
          refine runs_bind (ih _ (by omega)) fun _ _ _ => (total_pure _).runs _
        · split
          · exact (total_here _).runs _
          · exact runs_bind (ih _ (by omega)) fun _ _ _ => (total_pure _).runs _

theorem calm_string : Calm string := by
  have := calm_fueled scan_mono scan_runs calm_scan
  unfold string; calm

theorem total_string : Total string := by
  have := total_fueled scan_runs
  unfold string; total

theorem calm_skipEscape : Calm skipEscape := by
  have := calm_hexEscape
  unfold skipEscape; calm
theorem total_skipEscape : Total skipEscape := by
  have := total_hexEscape
  unfold skipEscape; total

theorem calm_skipChars : ∀ n, Calm (skipChars n) := by
  intro n
  induction n with
  | zero => exact calm_halt
  | succ n ih =>
    have := calm_skipEscape
    unfold skipChars; calm

theorem skipChars_mono : ∀ n, Refines (skipChars n) (skipChars (n + 1)) := by
  intro n
  induction n with
  | zero => exact refines_halt _
  | succ n ih => rw [skipChars, skipChars]; refines

theorem skipChars_runs : ∀ n s, 2 * s.length + 2 ≤ n → Runs (skipChars n) s := by
  intro n
  induction n with
  | zero => intro s h; omega
  | succ n ih =>
    intro s h
    unfold skipChars
    refine runs_bind (total_peek.runs s) ?_
    rintro _ _ ⟨⟩
    cases s with
    | nil => exact (total_here _).runs _
    | cons c s =>
      simp only [List.length_cons] at h
      simp only [List.head?_cons]
      split
      · exact total_eat.runs _
      · split
        · refine runs_bind (total_eat.runs _) ?_
          rintro _ _ ⟨⟩
          refine runs_bind (total_skipEscape.runs _) fun e r' he => ?_
          have := calm_skipEscape.len s
          rw [List.tail_cons] at he
          rw [he] at this
          simp only at this
          exact ih _ (by omega)
        · split
          · exact (total_here _).runs _
          · refine runs_bind (total_eat.runs _) ?_
            rintro _ _ ⟨⟩
            exact ih _ (by simp only [List.tail_cons]; omega)

theorem calm_skipString : Calm (fueled skipChars) := calm_fueled skipChars_mono skipChars_runs calm_skipChars
theorem total_skipString : Total (fueled skipChars) := total_fueled skipChars_runs

theorem calm_skipKey : Calm skipKey := by
  have := calm_skipString
  unfold skipKey; calm
theorem total_skipKey : Total skipKey := by
  have := total_skipString
  unfold skipKey; total

end Reading
end Oid4vci
