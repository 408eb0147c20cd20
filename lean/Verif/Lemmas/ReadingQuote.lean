import Verif.Lemmas.ReadingTorn

/-! What readers say has ended too early. -/

namespace Oid4vci

/-- Brackets. -/
inductive Spec.Bracket
  | square | curly
  deriving DecidableEq

/-- Where in a text one is: outside of its strings, inside one, or after a backslash in one; and the brackets that are
open, the innermost first. -/
inductive Spec.Place
  | outside (opened : List Spec.Bracket)
  | inside (opened : List Spec.Bracket)
  | escaped (opened : List Spec.Bracket)
  deriving DecidableEq

namespace Reading.Quote

open Json Spec Spec.Place

variable {α β : Type} {k : List Bracket}

/-- After a character. -/
def step : Place → Char → Place
  | outside k, c =>
    if c = '"' then inside k
    else if c = '[' then outside (.square :: k)
    else if c = '{' then outside (.curly :: k)
    else if c = ']' ∨ c = '}' then outside k.tail
    else outside k
  | inside k, c => if c = '"' then outside k else if c = '\\' then escaped k else inside k
  | escaped k, _ => inside k

/-- After a text. -/
def run (p : Place) (s : Str) : Place := s.foldl step p

/-- The characters that matter outside of strings. -/
def marks : List Char := ['"', '[', '{', ']', '}']

/-- Whether a message fits the place. -/
def Fit : Place → Str → Prop
  | outside k, m => m ≠ eofString ∧ (m = eofList → k.head? = some .square) ∧ (m = eofObject → k.head? = some .curly)
  | inside _, m => m = eofString
  | escaped _, m => m = eofString

/-- Messages that fit. -/
macro "fit" : tactic => `(tactic| first
  | rfl
  | (refine ⟨by decide, ?_, ?_⟩ <;> first | (intro _; rfl) | (intro h; exact absurd h (by decide))))

theorem step_plain {c : Char} (hc : c ∉ marks) : step (outside k) c = outside k := by
  simp only [marks, List.mem_cons, List.not_mem_nil, or_false, not_or] at hc
  obtain ⟨h1, h2, h3, h4, h5⟩ := hc
  simp [step, h1, h2, h3, h4, h5]

theorem run_append (p : Place) (s t : Str) : run p (s ++ t) = run (run p s) t := List.foldl_append

theorem run_plain : ∀ {s : Str}, (∀ c ∈ s, c ∉ marks) → run (outside k) s = (outside k)
  | [], _ => rfl
  | c :: s, h => by
    have h1 : step (outside k) c = (outside k) := step_plain (h c (by simp))
    exact (congrArg (run · s) h1).trans (run_plain fun d hd => h d (by simp [hd]))

/-- A message out of the list `E`, at the end, which fits (or no fuel). -/
inductive Starved (E : List Str) (p : Place) : Out α × Str → Prop
  | err (m r : Str) (h : m ∈ E) (hp : Fit p m) : Starved E p (.err m (some 0), r)
  | stuck (r : Str) : Starved E p (.stuck, r)

/-- All octets were taken, up to `p`: with a message, or a value at `q`. -/
def Ends (E : List Str) (P : Prop) (p q : Place) (o : Out α × Str) : Prop :=
  Starved E p o ∨ (P ∧ p = q ∧ ∃ a, o = (.ok a, []))

/-- What a reader from `p` to `q` says about the beginning `s` of a text it reads, if it begins with the character. -/
structure Torn (E : List Str) (h : Option Char) (p q : Place) (P : Prop) (f : Reader α) : Prop where
  cut : ∀ s t a r, (∀ c, h = some c → s.head? = some c) → f (s ++ t) = (.ok a, r) →
    (∃ u s', s = u ++ s' ∧ r = s' ++ t ∧ f s = (.ok a, s') ∧ run p u = q) ∨ Ends E P (run p s) q (f s)

variable {E : List Str} {P : Prop} {p q : Place} {h : Option Char}

theorem starved_ends {o : Out α × Str} (h : Starved E p o) : Ends E P p q o := .inl h

theorem starved_here (m : Str) [h : Has E m] (hm : Fit p m) : Starved E p ((here m : Reader α) []) :=
  .err m [] h.mem hm
theorem starved_ahead (m : Str) [h : Has E m] (hm : Fit p m) : Starved E p ((ahead m : Reader α) []) :=
  .err m [] h.mem hm
theorem starved_halt {s : Str} : Starved E p ((halt : Reader α) s) := .stuck _
theorem starved_bind {f : Reader α} {g : α → Reader β} (h : Starved E p (f [])) : Starved E p ((f >>= g) []) := by
  rw [run_bind]
  generalize f [] = o at h
  cases h with
  | err m r h hp => exact .err m r h hp
  | stuck r => exact .stuck r
theorem starved_ws {g : Option Char → Reader β} (h : Starved E p (g none [])) : Starved E p ((ws >>= g) []) := h
theorem starved_peek {g : Option Char → Reader β} (h : Starved E p (g none [])) : Starved E p ((peek >>= g) []) := h
theorem starved_next {g : Option Char → Reader β} (h : Starved E p (g none [])) : Starved E p ((next >>= g) []) := h
theorem starved_eat {g : Unit → Reader β} (h : Starved E p (g () [])) : Starved E p ((eat >>= g) []) := h
theorem starved_settle {f : Reader α} (h : Starved E p (f [])) : Starved E p (settle f []) := by
  unfold settle
  generalize f [] = o at h ⊢
  cases h with
  | err m r h hp => exact .err m r h hp
  | stuck r => exact .stuck r
theorem starved_after {f : Reader α} {c : Reader Unit} (h : Starved E p (f [])) : Starved E p (after f c []) := by
  unfold after
  generalize f [] = o at h ⊢
  cases h with
  | err m r h hp => exact .err m _ h hp
  | stuck r => exact .stuck r

theorem ends_pure (a : α) : Ends E True p p ((pure a : Reader α) []) := .inr ⟨trivial, rfl, a, rfl⟩
theorem ends_digits : Ends E True p p (digits []) := .inr ⟨trivial, rfl, [], rfl⟩
theorem ends_bind {f : Reader α} {g : α → Reader β} {q' : Place} (h : Ends E True p q (f []))
    (hg : ∀ a, Ends E P q q' (g a [])) : Ends E P p q' ((f >>= g) []) := by
  rcases h with h | ⟨-, rfl, a, e⟩
  · exact .inl (starved_bind h)
  · rw [run_bind, e]; exact hg a
theorem ends_ws {g : Option Char → Reader β} (h : Ends E P p q (g none [])) : Ends E P p q ((ws >>= g) []) := h
theorem ends_peek {g : Option Char → Reader β} (h : Ends E P p q (g none [])) : Ends E P p q ((peek >>= g) []) := h
theorem ends_next {g : Option Char → Reader β} (h : Ends E P p q (g none [])) : Ends E P p q ((next >>= g) []) := h

theorem weak {f : Reader α} (hf : Torn E none p q P f) : Torn E h p q P f where
  cut s t a r _ e := hf.cut s t a r (by simp) e

theorem torn_mono {Q : Prop} {f : Reader α} (hf : Torn E h p q P f) (hq : P → Q) : Torn E h p q Q f where
  cut s t a r hs e := by
    rcases hf.cut s t a r hs e with h | h | ⟨hp, h⟩
    · exact .inl h
    · exact .inr (.inl h)
    · exact .inr (.inr ⟨hq hp, h⟩)

theorem sure {f : Reader α} (hf : Torn E none p q False f) : Torn E h p q P f := weak (torn_mono hf False.elim)

theorem torn_never {f : Reader α} (hf : ∀ s a r, f s ≠ (.ok a, r)) : Torn E h p q P f where
  cut _ _ _ _ _ e := absurd e (hf _ _ _)

theorem torn_pure (a : α) : Torn E h p p P (pure a : Reader α) where
  cut s t a' r _ e := by cases e; exact .inl ⟨[], s, rfl, rfl, rfl, rfl⟩

theorem torn_here (m : Str) : Torn E h p q P (here m : Reader α) := torn_never (fun _ _ _ h => by cases h)
theorem torn_ahead (m : Str) : Torn E h p q P (ahead m : Reader α) := torn_never (fun _ _ _ h => by cases h)
theorem torn_custom (m : Str) : Torn E h p q P (custom m : Reader α) := torn_never (fun _ _ _ h => by cases h)
theorem torn_halt : Torn E h p q P (halt : Reader α) := torn_never (fun _ _ _ h => by cases h)

theorem torn_digits : Torn E h (outside k) (outside k) True digits where
  cut s t a r _ e := by
    cases e
    have hd : ∀ c : Char, isDigit c = true → c ∉ marks := by
      intro c hc hm
      simp only [marks, List.mem_cons, List.not_mem_nil, or_false] at hm
      rcases hm with rfl | rfl | rfl | rfl | rfl <;> revert hc <;> decide
    by_cases h : ∀ c ∈ s, isDigit c = true
    · refine .inr (.inr ⟨trivial, run_plain fun c hc => hd c (h c hc), s.takeWhile isDigit, ?_⟩)
      unfold digits
      rw [List.dropWhile_eq_nil_iff.2 h]
    · have hn : s.dropWhile isDigit ≠ [] := fun hs => h (List.dropWhile_eq_nil_iff.1 hs)
      refine .inl ⟨s.takeWhile isDigit, s.dropWhile isDigit, List.takeWhile_append_dropWhile.symm, ?_, ?_,
        run_plain fun c hc => hd c (List.mem_takeWhile_imp hc)⟩
      · rw [List.dropWhile_append, if_neg]
        simpa using hn
      · unfold digits
        congr 2
        rw [List.takeWhile_append, if_neg]
        intro hl
        apply hn
        have := List.takeWhile_append_dropWhile (p := isDigit) (l := s)
        have h2 := congrArg List.length this
        rw [List.length_append] at h2
        exact List.eq_nil_of_length_eq_zero (by omega)

theorem torn_bind {f : Reader α} {g : α → Reader β} {q' : Place} (hf : Torn E h p q True f)
    (hg : ∀ a, Torn E none q q' P (g a)) (hh : ∀ a, Ends E P q q' (g a [])) : Torn E h p q' P (f >>= g) where
  cut s t b r hs e := by
    rw [run_bind] at e ⊢
    rcases h : f (s ++ t) with ⟨a | ⟨m, l⟩ | _, r1⟩ <;> rw [h] at e <;> simp only at e
    · rcases hf.cut s t a r1 hs h with ⟨u, s', rfl, rfl, h1, h2⟩ | h1 | ⟨-, h2, a', h1⟩
      · rw [h1, run_append, h2]
        rcases (hg a).cut s' t b r (by simp) e with ⟨u', s2, rfl, rfl, h3, h4⟩ | h3
        · exact .inl ⟨u ++ u', s2, by simp, rfl, h3, by rw [run_append, h2, h4]⟩
        · exact .inr h3
      · generalize f s = o at h1 ⊢
        cases h1 with
        | err m r h hp => exact .inr (.inl (.err m r h hp))
        | stuck r => exact .inr (.inl (.stuck r))
      · rw [h1, h2]; exact .inr (hh a')
    · cases e
    · cases e

theorem torn_bind_sure {f : Reader α} {g : α → Reader β} {q' : Place} (hf : Torn E h p q False f)
    (hg : ∀ a, Torn E none q q' P (g a)) : Torn E h p q' P (f >>= g) where
  cut s t b r hs e := by
    rw [run_bind] at e ⊢
    rcases h : f (s ++ t) with ⟨a | ⟨m, l⟩ | _, r1⟩ <;> rw [h] at e <;> simp only at e
    · rcases hf.cut s t a r1 hs h with ⟨u, s', rfl, rfl, h1, h2⟩ | h1 | ⟨h, -⟩
      · rw [h1, run_append, h2]
        rcases (hg a).cut s' t b r (by simp) e with ⟨u', s2, rfl, rfl, h3, h4⟩ | h3
        · exact .inl ⟨u ++ u', s2, by simp, rfl, h3, by rw [run_append, h2, h4]⟩
        · exact .inr h3
      · generalize f s = o at h1 ⊢
        cases h1 with
        | err m r h hp => exact .inr (.inl (.err m r h hp))
        | stuck r => exact .inr (.inl (.stuck r))
      · exact h.elim
    · cases e
    · cases e

theorem torn_eat {c : Char} (hc : step p c = q) : Torn E (some c) p q P eat where
  cut s t a r hs e := by
    cases e
    cases s with
    | nil => simp at hs
    | cons d s =>
      obtain rfl : d = c := by simpa using hs
      exact .inl ⟨[d], s, rfl, rfl, rfl, hc⟩

theorem torn_eat_bind {c : Char} {g : Unit → Reader β} {q' : Place} (hc : step p c = q) (hg : Torn E none q q' P (g ())) :
    Torn E (some c) p q' P (eat >>= g) := torn_bind_sure (torn_eat hc) fun _ => hg

theorem torn_next {g : Option Char → Reader β} (hh : Ends E P p q (g none []))
    (hg : ∀ c, Torn E none (step p c) q P (g (some c))) : Torn E h p q P (next >>= g) where
  cut s t b r _ e := by
    cases s with
    | nil => exact .inr hh
    | cons c s =>
      rcases (hg c).cut s t b r (by simp) e with ⟨u, s', rfl, rfl, h1, h2⟩ | h1
      · exact .inl ⟨c :: u, s', rfl, rfl, h1, h2⟩
      · exact .inr h1

theorem torn_peek {g : Option Char → Reader β} (hh : Ends E P p q (g none []))
    (hg : ∀ c, Torn E (some c) p q P (g (some c))) : Torn E h p q P (peek >>= g) where
  cut s t b r _ e := by
    cases s with
    | nil => exact .inr hh
    | cons c s => exact (hg c).cut (c :: s) t b r (by simp) e

theorem torn_ws {g : Option Char → Reader β} (hh : Ends E P (outside k) q (g none []))
    (hg : ∀ c, Torn E (some c) (outside k) q P (g (some c))) : Torn E h (outside k) q P (ws >>= g) where
  cut s t b r _ e := by
    have hr : ∀ s, (ws >>= g) s = g (skipWs s).head? (skipWs s) := fun s => rfl
    have hq : ∀ c : Char, isWs c = true → c ∉ marks := by
      intro c hc hm
      simp only [marks, List.mem_cons, List.not_mem_nil, or_false] at hm
      rcases hm with rfl | rfl | rfl | rfl | rfl <;> revert hc <;> decide
    rw [hr] at e ⊢
    by_cases h : ∀ c ∈ s, isWs c = true
    · have : skipWs s = [] := List.dropWhile_eq_nil_iff.2 h
      rw [this, run_plain fun c hc => hq c (h c hc)]
      exact .inr hh
    · have h1 : skipWs (s ++ t) = skipWs s ++ t := by
        unfold skipWs
        rw [List.dropWhile_append, if_neg]
        simpa only [List.isEmpty_iff] using fun hs => h (List.dropWhile_eq_nil_iff.1 hs)
      have hw : run (outside k) (s.takeWhile isWs) = (outside k) := run_plain fun c hc => hq c (List.mem_takeWhile_imp hc)
      have hs2 : s = s.takeWhile isWs ++ skipWs s := List.takeWhile_append_dropWhile.symm
      rw [h1] at e
      cases hs : skipWs s with
      | nil => exact absurd (List.dropWhile_eq_nil_iff.1 hs) h
      | cons c s' =>
        rw [hs] at e hs2
        have hrun : run (outside k) s = run (outside k) (c :: s') := by
          conv_lhs => rw [hs2, run_append, hw]
        rcases (hg c).cut (c :: s') t b r (by simp) e with ⟨u, s2, h3, rfl, h4, h5⟩ | h3
        · exact .inl ⟨s.takeWhile isWs ++ u, s2, by rw [List.append_assoc, ← h3]; exact hs2, rfl, h4, by
            rw [run_append, hw, h5]⟩
        · rw [hrun]; exact .inr h3

theorem torn_settle {f : Reader α} (hf : Torn E h p q P f) : Torn E h p q P (settle f) where
  cut s t a r hs e := by
    have hr : ∀ s, settle f s = match f s with
      | (.err m none, r) => (.err m (some r.length), r)
      | o => o := fun s => rfl
    rw [hr] at e ⊢
    rcases h : f (s ++ t) with ⟨a' | ⟨m, _ | l⟩ | _, r1⟩ <;> rw [h] at e <;> simp only at e <;> cases e
    rcases hf.cut s t a r hs h with ⟨u, s', h0, rfl, h1, h2⟩ | h1 | ⟨hp, h2, a', h1⟩
    · rw [h1]; exact .inl ⟨u, s', h0, rfl, rfl, h2⟩
    · generalize f s = o at h1 ⊢
      cases h1 with
      | err m r h hp => exact .inr (.inl (.err m r h hp))
      | stuck r => exact .inr (.inl (.stuck r))
    · rw [h1]; exact .inr (.inr ⟨hp, h2, a', rfl⟩)

theorem torn_after {f : Reader α} {c : Reader Unit} {q' : Place} (hf : Torn E h p q True f)
    (hc : Torn E none q q' True c) (hh : Starved E q (c [])) : Torn E h p q' True (after f c) where
  cut s t a r hs e := by
    unfold after at e ⊢
    rcases h : f (s ++ t) with ⟨a' | ⟨m, l⟩ | _, r1⟩ <;> rw [h] at e <;> simp only at e
    · rcases h2 : c r1 with ⟨u | ⟨m, l⟩ | _, r2⟩ <;> rw [h2] at e <;> simp only at e <;> cases e
      rcases hf.cut s t a r1 hs h with ⟨v, s', rfl, rfl, h1, h4⟩ | h1 | ⟨-, h4, a', h1⟩
      · rw [h1, run_append, h4]
        dsimp only
        rcases hc.cut s' t u r (by simp) h2 with ⟨v2, s2, rfl, rfl, h3, h5⟩ | h3 | ⟨-, h5, u', h3⟩
        · rw [h3]; exact .inl ⟨v ++ v2, s2, by simp, rfl, rfl, by rw [run_append, h4, h5]⟩
        · generalize c s' = o at h3 ⊢
          cases h3 with
          | err m r h hp => exact .inr (.inl (.err m r h hp))
          | stuck r => exact .inr (.inl (.stuck r))
        · rw [h3]; exact .inr (.inr ⟨trivial, h5, _, rfl⟩)
      · generalize f s = o at h1 ⊢
        cases h1 with
        | err m r h hp => exact .inr (.inl (.err m _ h hp))
        | stuck r => exact .inr (.inl (.stuck r))
      · rw [h1, h4]
        dsimp only
        generalize c [] = o at hh ⊢
        cases hh with
        | err m r h hp => exact .inr (.inl (.err m r h hp))
        | stuck r => exact .inr (.inl (.stuck r))
    · cases e
    · cases e

theorem torn_fueled {loop : Nat → Reader α} (hm : ∀ n, Refines (loop n) (loop (n + 1)))
    (hr : ∀ n s, 2 * s.length + 2 ≤ n → Runs (loop n) s) (hc : ∀ n, Torn E h p q P (loop n)) :
    Torn E h p q P (fueled loop) where
  cut s t a r hs e := by
    have h1 := fueled_eq hm hr (n := 2 * (s ++ t).length + 2) (s := s) (by simp)
    rw [h1]
    exact (hc _).cut s t a r hs e

theorem digit_plain {c : Char} (hc : isDigit c = true) : c ∉ marks := by
  intro hm
  simp only [marks, List.mem_cons, List.not_mem_nil, or_false] at hm
  rcases hm with rfl | rfl | rfl | rfl | rfl <;> revert hc <;> decide

theorem quoted {c : Char} (hc : c = '"') : step (outside k) c = inside k := if_pos hc
theorem square {c : Char} (hc : c = '[') : step (outside k) c = outside (.square :: k) := by subst hc; rfl
theorem curly {c : Char} (hc : c = '{') : step (outside k) c = outside (.curly :: k) := by subst hc; rfl
theorem unsquare {c : Char} {b : Bracket} (hc : c = ']') : step (outside (b :: k)) c = outside k := by subst hc; rfl
theorem uncurly {c : Char} {b : Bracket} (hc : c = '}') : step (outside (b :: k)) c = outside k := by subst hc; rfl

theorem torn_next_out {g : Option Char → Reader β} (hh : Ends E P (outside k) q (g none []))
    (hq : ∀ c ∈ marks, ∀ p, Torn E none p q P (g (some c)))
    (hg : ∀ c, c ∉ marks → Torn E none (outside k) q P (g (some c))) :
    Torn E h (outside k) q P (next >>= g) := by
  refine torn_next hh fun c => ?_
  by_cases hc : c ∈ marks
  · exact hq c hc _
  · rw [step_plain hc]; exact hg c hc

/-- The step at a character that is known. -/
macro "steps" : tactic => `(tactic| first
  | exact quoted (by assumption) | exact square (by assumption) | exact curly (by assumption)
  | exact unsquare (by assumption) | exact uncurly (by assumption)
  | exact step_plain (by assumption) | exact step_plain (digit_plain (by assumption))
  | (subst_vars; exact step_plain (by decide))
  | (cases ‹some _ = some _›; exact step_plain (by decide))
  | (rcases ‹_ ∨ _› with hc | hc <;> first | exact hc.elim | (subst hc; exact step_plain (by decide))))

theorem torn_bind_same {f : Reader α} {g : α → Reader β} (hf : Torn E h p p True f)
    (hg : ∀ a, Torn E none p q P (g a)) (hh : ∀ a, Ends E P p q (g a [])) : Torn E h p q P (f >>= g) :=
  torn_bind hf hg hh

theorem ends_bind_same {f : Reader α} {g : α → Reader β} (h : Ends E True p p (f []))
    (hg : ∀ a, Ends E P p q (g a [])) : Ends E P p q ((f >>= g) []) := ends_bind h hg

/-- Readers that reject the characters that matter. -/
macro "marked" : tactic => `(tactic| (
  intro c hc p
  simp only [marks, List.mem_cons, List.not_mem_nil, or_false] at hc
  rcases hc with hc | hc | hc | hc | hc <;> subst hc <;> exact torn_here _))

/-- Readers built from readers. -/
macro "torn" : tactic => `(tactic| repeat' (first
  | with_reducible assumption
  | with_reducible exact torn_pure _ | with_reducible exact torn_here _ | with_reducible exact torn_ahead _
  | with_reducible exact torn_custom _ | with_reducible exact torn_halt
  | with_reducible exact torn_digits
  | exact torn_eat (by steps)
  | with_reducible exact starved_halt
  | with_reducible refine starved_here _ ?_ | with_reducible refine starved_ahead _ ?_
  | with_reducible refine starved_ends (starved_here _ ?_)
  | with_reducible refine starved_ends (starved_ahead _ ?_)
  | fit
  | with_reducible exact ends_pure _ | with_reducible exact ends_digits
  | with_reducible apply starved_ws | with_reducible apply starved_peek | with_reducible apply starved_next
  | with_reducible apply starved_settle | with_reducible apply starved_after
  | with_reducible exact starved_bind (by with_reducible assumption)
  | with_reducible exact starved_ends (by with_reducible assumption)
  | with_reducible exact starved_ends (starved_bind (by with_reducible assumption))
  | with_reducible exact starved_ends (starved_after (by with_reducible assumption))
  | with_reducible apply ends_ws | with_reducible apply ends_peek | with_reducible apply ends_next
  | with_reducible refine ends_bind (by with_reducible assumption) ?_
  | with_reducible refine ends_bind_same ?_ ?_
  | with_reducible apply torn_ws | with_reducible apply torn_peek
  | ((with_reducible refine torn_next_out ?_ ?_ ?_); on_goal 2 => marked)
  | (refine torn_eat_bind (by steps) ?_)
  | with_reducible exact weak (by with_reducible assumption)
  | with_reducible exact sure (by with_reducible assumption)
  | with_reducible refine torn_bind_sure (sure (by with_reducible assumption)) ?_
  | with_reducible refine torn_bind_sure (torn_pure _) ?_
  | with_reducible refine torn_bind (weak (by with_reducible assumption)) ?_ ?_
  | with_reducible refine torn_bind_same ?_ ?_ ?_
  | with_reducible apply torn_settle
  | dsimp only
  | intro _ | split))

section
variable [Eofs E]

theorem torn_ident : ∀ cs : Str, (∀ c ∈ cs, c ∉ marks) → Torn E none (outside k) (outside k) False (ident cs) := by
  intro cs
  induction cs with
  | nil => exact fun _ => torn_pure ()
  | cons c cs ih =>
    intro hc
    unfold ident
    refine torn_next_out (starved_ends (starved_here _ (by fit))) (fun x hx p => ?_) fun x hx => ?_
    · dsimp only
      rw [if_neg (by rintro rfl; exact hc x (by simp) hx)]
      exact torn_here _
    · dsimp only
      split
      · exact ih fun c h => hc c (by simp [h])
      · exact torn_here _

theorem ends_ident (cs : Str) : Ends E True (outside k) (outside k) (ident cs []) := by
  cases cs with
  | nil => exact ends_pure ()
  | cons c cs => exact starved_ends (starved_here eofValue (by fit))

theorem run_hex : ∀ {s : Str}, (∀ c ∈ s, (hexVal c).isSome) → run (inside k) s = (inside k)
  | [], _ => rfl
  | c :: s, h => by
    have hc := h c (by simp)
    have h1 : step (inside k) c = (inside k) :=
      (if_neg (by rintro rfl; revert hc; decide)).trans (if_neg (by rintro rfl; revert hc; decide))
    exact (congrArg (run · s) h1).trans (run_hex fun d hd => h d (by simp [hd]))

theorem hex4_chars {a b c d : Char} {n : Nat} (h : hex4 a b c d = some n) : ∀ x ∈ [a, b, c, d], (hexVal x).isSome := by
  unfold hex4 at h
  simp only [Option.bind_eq_bind, Option.bind_eq_some_iff] at h
  obtain ⟨_, h1, _, h2, _, h3, _, h4, -⟩ := h
  simp [h1, h2, h3, h4]

theorem torn_hexEscape : Torn E none (inside k) (inside k) False hexEscape where
  cut s t a r _ e := by
    obtain ⟨h1, h2⟩ := hexEscape_sound (got_eq_some.2 e)
    obtain ⟨c1, c2, c3, c4, h3, h4⟩ := hex4_iff.1 h2
    have hx : ∀ c ∈ a.1, (hexVal c).isSome := by
      rw [h3]
      exact hex4_chars h4
    by_cases hl : s.length < 4
    · have hp : s <+: a.1 := by
        have hs : s <+: a.1 ++ r := ⟨t, h1⟩
        exact List.prefix_of_prefix_length_le hs (List.prefix_append _ _) (by rw [h3]; simp; omega)
      rw [run_hex fun c hc => hx c (hp.subset hc)]
      unfold hexEscape
      rw [if_pos hl]
      exact .inr (.inl (.err eofString [] Has.mem rfl))
    · have hp : a.1 <+: s := by
        have hs : s <+: a.1 ++ r := ⟨t, h1⟩
        exact List.prefix_of_prefix_length_le (List.prefix_append _ _) hs (by rw [h3]; simp; omega)
      obtain ⟨s', rfl⟩ := hp
      refine .inl ⟨a.1, s', rfl, ?_, ?_, run_hex hx⟩
      · rw [List.append_assoc] at h1
        exact (List.append_cancel_left h1).symm
      · exact got_eq_some.1 (hexEscape_complete h2)

theorem torn_escape : Torn E none (escaped k) (inside k) False escape := by
  have h1 := torn_hexEscape (E := E) (k := k)
  unfold escape
  refine torn_next (starved_ends (starved_here _ (by fit))) fun c => ?_
  rw [show step (escaped k) c = (inside k) from rfl]
  try dsimp only
  split
  · contradiction
  · refine torn_bind_sure h1 fun a => ?_
    split
    · exact torn_here _
    · split
      · refine torn_next (starved_ends (starved_here _ (by fit))) fun c => ?_
        try dsimp only
        split
        · contradiction
        · rename_i hc
          cases hc
          rw [show step (inside k) '\\' = (escaped k) from rfl]
          refine torn_next (starved_ends (starved_here _ (by fit))) fun c => ?_
          rw [show step (escaped k) c = (inside k) from rfl]
          try dsimp only
          split
          · contradiction
          · refine torn_bind_sure h1 fun a => ?_
            split
            · exact torn_here _
            · exact torn_pure _
          · exact torn_here _
        · exact torn_here _
      · exact torn_pure _
  · split
    · exact torn_pure _
    · exact torn_here _

theorem torn_scan : ∀ n, Torn E none (inside k) (outside k) False (scan n) := by
  intro n
  induction n with
  | zero => exact torn_halt
  | succ n ih =>
    have h1 := torn_escape (E := E) (k := k)
    unfold scan
    refine torn_next (starved_ends (starved_here _ (by fit))) fun c => ?_
    dsimp only
    split
    · rename_i hc
      rw [show step (inside k) c = (outside k) from if_pos hc]
      exact torn_pure _
    · rename_i hq
      split
      · rename_i hc
        rw [show step (inside k) c = (escaped k) from (if_neg hq).trans (if_pos hc)]
        exact torn_bind_sure h1 fun _ => torn_bind_sure ih fun _ => torn_pure _
      · rename_i hc
        rw [show step (inside k) c = (inside k) from (if_neg hq).trans (if_neg hc)]
        split
        · exact torn_here _
        · exact torn_bind_sure ih fun _ => torn_pure _

theorem torn_string : Torn E none (inside k) (outside k) False string := by
  have := torn_fueled scan_mono scan_runs (torn_scan (E := E) (k := k))
  unfold string; torn

theorem torn_nextKey (b : Bool) : Torn E none (outside (.curly :: k)) (outside (.curly :: k)) False (nextKey b) := by
  have := torn_string (E := E) (k := .curly :: k)
  unfold nextKey
  cases b
  all_goals
    simp only [if_true, if_false, Bool.false_eq_true]
    torn

theorem starved_nextKey (b : Bool) : Starved E (outside (.curly :: k)) (nextKey b []) := starved_ahead eofObject (by fit)

theorem torn_nextItem (b : Bool) : Torn E none (outside (.square :: k)) (outside (.square :: k)) False (nextItem b) := by
  unfold nextItem; torn

theorem starved_nextItem (b : Bool) : Starved E (outside (.square :: k)) (nextItem b []) := starved_ahead eofList (by fit)

theorem torn_colon : Torn E none (outside (.curly :: k)) (outside (.curly :: k)) False colon := by unfold colon; torn
theorem starved_colon : Starved E (outside (.curly :: k)) (colon []) := starved_ahead eofObject (by fit)
theorem torn_endMap : Torn E none (outside (.curly :: k)) (outside k) False endMap := by unfold endMap; torn
theorem starved_endMap : Starved E (outside (.curly :: k)) (endMap []) := starved_ahead eofObject (by fit)
theorem torn_endSeq : Torn E none (outside (.square :: k)) (outside k) False endSeq := by
  have h : ∀ c, Torn E (some c) (outside (.square :: k)) (outside k) False (do
      eat
      match ← ws with
      | none => ahead trailingCharacters
      | some x => if x = ']' then ahead trailingComma else ahead trailingCharacters : Reader Unit) := by
    refine fun c => torn_never fun s a r h => ?_
    have hr : ∀ s, (do
      eat
      match ← ws with
      | none => ahead trailingCharacters
      | some x => if x = ']' then ahead trailingComma else ahead trailingCharacters : Reader Unit) s =
        (match (skipWs s.tail).head? with
          | none => (ahead trailingCharacters : Reader Unit)
          | some x => if x = ']' then ahead trailingComma else ahead trailingCharacters) (skipWs s.tail) := fun _ => rfl
    rw [hr] at h
    rcases hd : (skipWs s.tail).head? with _ | x <;> rw [hd] at h <;> dsimp only at h
    · cases h
    · split at h <;> cases h
  unfold endSeq
  refine torn_ws (starved_ends (starved_ahead _ (by fit))) fun c => ?_
  dsimp only
  split
  · exact torn_eat (by steps)
  · split
    · exact h c
    · exact torn_ahead _
theorem starved_endSeq : Starved E (outside (.square :: k)) (endSeq []) := starved_ahead eofList (by fit)

omit [Eofs E] in
theorem torn_wrongType (T : Texts) (e : Str) : Torn E h p q P (wrongType T e : Reader α) := by
  refine torn_never fun s a r h => ?_
  have h1 := (got_wrongType T e s : got (wrongType T e : Reader α) s = none)
  rw [got, h] at h1
  cases h1

theorem torn_visitStr (T : Texts) (e : Str) {visit : Str → Reader α}
    (hv : ∀ s, Torn E none (outside k) (outside k) False (visit s)) :
    Torn E none (outside k) (outside k) False (visitStr T e visit) := by
  have h1 := torn_string (E := E) (k := k)
  have h3 := torn_wrongType (α := α) (E := E) (h := none) (p := outside k) (q := outside k) (P := False) T e
  unfold visitStr
  torn

theorem starved_visitStr (T : Texts) (e : Str) {visit : Str → Reader α} : Starved E (outside k) (visitStr T e visit []) :=
  .err eofValue [] Has.mem (by fit)

theorem torn_unit (T : Texts) : Torn E none (outside k) (outside k) False (unit T) := by
  have h2 := torn_wrongType (α := Unit) (E := E) (h := none) (p := outside k) (q := outside k) (P := False) T (str! "unit")
  have h3 := torn_ident (E := E) (k := k) (str! "ull") (by decide)
  unfold unit; torn

theorem starved_unit (T : Texts) : Starved E (outside k) (unit T []) := .err eofValue [] Has.mem (by fit)

theorem torn_option {f : Reader Json} (hf : Torn E none (outside k) (outside k) True f) (hs : Starved E (outside k) (f [])) :
    Torn E none (outside k) (outside k) True (option f) := by
  have h3 := torn_ident (E := E) (k := k) (str! "ull") (by decide)
  unfold option; torn

omit [Eofs E] in
theorem starved_option {f : Reader Json} (hs : Starved E p (f [])) : Starved E p (option f []) := hs

theorem torn_variantName (T : Texts) (names : List Str) : Torn E none (outside k) (outside k) False (variantName T names) :=
  torn_visitStr _ _ fun s => by torn

theorem torn_variant (T : Texts) (names : List Str) : Torn E none (outside k) (outside k) True (variant T names) := by
  have h0 := torn_variantName (E := E) (k := k) T names
  have h1 := torn_variantName (E := E) (k := .curly :: k) T names
  have h2 := torn_unit (E := E) (k := .curly :: k) T
  have h3 := torn_colon (E := E) (k := k)
  unfold variant; torn

theorem starved_variant (T : Texts) (names : List Str) : Starved E (outside k) (variant T names []) :=
  .err eofValue [] Has.mem (by fit)

theorem starved_members {fld : Str → Option (Reader Json)} {other : Reader Json} : ∀ n b seen,
    Starved E (outside (.curly :: k)) (members fld other n b seen [])
  | 0, _, _ => .stuck _
  | _ + 1, _, _ => .err eofObject [] Has.mem (by fit)

theorem torn_members {fld : Str → Option (Reader Json)} {other : Reader Json}
    (hf : ∀ n f, fld n = some f → ∀ k, Torn E none (outside k) (outside k) True f) (ho : ∀ k, Torn E none (outside k) (outside k) True other) :
    ∀ n b seen, Torn E none (outside (.curly :: k)) (outside (.curly :: k)) False (members fld other n b seen) := by
  intro n
  induction n with
  | zero => exact fun _ _ => torn_halt
  | succ n ih =>
    intro b seen
    have h1 := torn_nextKey (E := E) (k := k) b
    have h2 := torn_colon (E := E) (k := k)
    have tail : ∀ (s : Str) (f : Reader Json) seen', (∀ k, Torn E none (outside k) (outside k) True f) →
        Torn E none (outside (.curly :: k)) (outside (.curly :: k)) False (do
          colon
          let v ← f
          let kvs ← members fld other n false seen'
          pure ((s, v) :: kvs)) := by
      intro s f seen' i1
      have i1 := i1 (.curly :: k)
      have i3 := ih false seen'
      have i4 := starved_members (E := E) (fld := fld) (other := other) (k := k) n false seen'
      torn
    unfold members
    refine torn_bind_sure h1 fun o => ?_
    cases o with
    | none => exact torn_pure _
    | some k =>
      dsimp only
      split
      · split
        · exact torn_custom _
        · exact tail _ _ _ (hf _ _ (by assumption))
      · exact tail _ _ _ ho

theorem torn_visitMap {fld : Str → Option (Reader Json)} {other : Reader Json} {required : List Str}
    (hf : ∀ n f, fld n = some f → (∀ k, Torn E none (outside k) (outside k) True f) ∧ Calm f ∧ Total f)
    (ho : (∀ k, Torn E none (outside k) (outside k) True other) ∧ Calm other ∧ Total other) :
    Torn E none (outside (.curly :: k)) (outside (.curly :: k)) False (visitMap fld other required) := by
  have : Torn E none (outside (.curly :: k)) (outside (.curly :: k)) False (fueled fun n => members fld other n true []) :=
    torn_fueled (fun n => members_mono n _ _)
      (fun n s h => members_runs (fun k f h => (hf k f h).2) ho.2 n _ _ s h)
      fun n => torn_members (fun k f h => (hf k f h).1) ho.1 n _ _
  unfold visitMap; torn

theorem ends_visitSeq {name : Str} {total : Nat} : ∀ (fs : List (Reader Json)) (i : Nat),
    Ends E True (outside (.square :: k)) (outside (.square :: k)) (visitSeq name total i fs [])
  | [], _ => ends_pure _
  | _ :: _, _ => .inl (.err eofList [] Has.mem (by fit))

theorem torn_visitSeq {name : Str} {total : Nat} : ∀ (fs : List (Reader Json)) (i : Nat),
    (∀ f ∈ fs, Torn E none (outside (.square :: k)) (outside (.square :: k)) True f) → Torn E none (outside (.square :: k)) (outside (.square :: k)) True (visitSeq name total i fs) := by
  intro fs
  induction fs with
  | nil => intro i _; exact torn_pure _
  | cons f fs ih =>
    intro i h
    have h1 := h f (by simp)
    have h2 := ih (i + 1) fun f hf => h f (by simp [hf])
    have h3 := torn_nextItem (E := E) (k := k) (decide (i = 0))
    have h5 := ends_visitSeq (E := E) (name := name) (total := total) (k := k) fs (i + 1)
    unfold visitSeq; torn

omit [Eofs E] in
theorem torn_document {f : Reader Json} (hf : Torn E none (outside k) (outside k) True f) :
    Torn E none (outside k) (outside k) True (document f) := by
  unfold document; torn

/-! ### Values -/

section
variable [Has E outOfRange]

omit [Eofs E] [Has E outOfRange] in
theorem torn_expDigits (limit : Option Nat) : ∀ n acc, Torn E none (outside k) (outside k) True (expDigits limit n acc) := by
  intro n
  induction n with
  | zero => exact fun _ => torn_halt
  | succ n ih =>
    intro acc
    unfold expDigits
    torn
    all_goals exact ih _

omit [Has E outOfRange] in
theorem torn_exponent (ds fs : Str) : Torn E none (outside k) (outside k) True (exponent ds fs) := by
  have h1 : ∀ limit acc, Torn E none (outside k) (outside k) True (fueled fun n => expDigits limit n acc) := fun limit acc =>
    torn_fueled (fun n => expDigits_mono limit n acc) (fun n s h => expDigits_runs limit n acc s h)
      fun n => torn_expDigits limit n acc
  unfold exponent
  torn
  all_goals exact h1 _ _

omit [Eofs E] [Has E outOfRange] in
theorem ends_exponent (ds fs : Str) : Ends E True (outside k) (outside k) (exponent ds fs []) := ends_pure _

omit [Has E outOfRange] in
theorem torn_fraction (ds : Str) : Torn E none (outside k) (outside k) True (fraction ds) := by
  have h1 := torn_exponent (E := E) (k := k) ds
  have h2 := ends_exponent (E := E) (k := k) ds
  unfold fraction
  torn
  all_goals first | exact h1 _ | exact weak (h1 _) | exact h2 _

omit [Eofs E] [Has E outOfRange] in
theorem ends_fraction (ds : Str) : Ends E True (outside k) (outside k) (fraction ds []) := ends_pure _

omit [Has E outOfRange] in
theorem torn_integer : Torn E none (outside k) (outside k) True integer := by
  unfold integer
  torn

omit [Has E outOfRange] in
theorem starved_integer : Starved E (outside k) (integer []) := .err eofValue [] Has.mem (by fit)

theorem torn_number (neg : Bool) : Torn E none (outside k) (outside k) True (number neg) := by
  have h1 := torn_integer (E := E) (k := k)
  have h2 := torn_fraction (E := E) (k := k)
  have h3 := ends_fraction (E := E) (k := k)
  have h4 := starved_integer (E := E) (k := k)
  unfold number
  torn
  all_goals first | exact h2 _ | exact h3 _ | (generalize readFloat _ = o; cases o <;> torn)

omit [Has E outOfRange] in
theorem starved_value : ∀ n d, Starved E (outside k) (value n d [])
  | 0, _ => .stuck _
  | _ + 1, _ => by rw [value.eq_def]; exact .err eofValue [] Has.mem (by fit)

omit [Has E outOfRange] in
theorem starved_items : ∀ n d b, Starved E (outside (.square :: k)) (items n d b [])
  | 0, _, _ => by rw [items]; exact .stuck _
  | _ + 1, _, _ => by rw [items]; exact .err eofList [] Has.mem (by fit)

omit [Has E outOfRange] in
theorem starved_pairs : ∀ n d b, Starved E (outside (.curly :: k)) (pairs n d b [])
  | 0, _, _ => by rw [pairs]; exact .stuck _
  | _ + 1, _, _ => by rw [pairs]; exact .err eofObject [] Has.mem (by fit)

theorem torn_value : ∀ n d, (∀ k, Torn E none (outside k) (outside k) True (value n d)) ∧
    (∀ k b, Torn E none (outside (.square :: k)) (outside (.square :: k)) True (items n d b)) ∧ ∀ k b, Torn E none (outside (.curly :: k)) (outside (.curly :: k)) True (pairs n d b) := by
  intro n
  induction n with
  | zero => exact fun d => ⟨fun _ => torn_halt, fun _ _ => torn_halt, fun _ _ => torn_halt⟩
  | succ n ih =>
    intro d
    refine ⟨fun k => ?_, fun k b => ?_, fun k b => ?_⟩
    · have h1 := torn_string (E := E) (k := k)
      have h2 := torn_number (E := E) (k := k) true
      have h3 := torn_number (E := E) (k := k) false
      have j1 := torn_ident (E := E) (k := k) (str! "ull") (by decide)
      have j2 := torn_ident (E := E) (k := k) (str! "rue") (by decide)
      have j3 := torn_ident (E := E) (k := k) (str! "alse") (by decide)
      rw [value.eq_def]
      simp only
      cases d with
      | zero => simp only; torn
      | succ d =>
        have l1 := torn_after ((ih d).2.1 k true) (torn_mono (torn_endSeq (E := E)) (Q := True) False.elim) starved_endSeq
        have l2 := torn_after ((ih d).2.2 k true) (torn_mono (torn_endMap (E := E)) (Q := True) False.elim) starved_endMap
        simp only; torn
    · have i1 := (ih d).1 (.square :: k)
      have i2 := (ih d).2.1 k false
      have i4 := starved_items (E := E) (k := k) n d false
      have := torn_nextItem (E := E) (k := k) b
      rw [items]; torn
    · have i1 := (ih d).1 (.curly :: k)
      have i2 := (ih d).2.2 k false
      have i4 := starved_pairs (E := E) (k := k) n d false
      have := torn_nextKey (E := E) (k := k) b
      have h6 := torn_colon (E := E) (k := k)
      rw [pairs]; torn

theorem torn_any (d : Nat) : Torn E none (outside k) (outside k) True (fueled fun n => value n d) :=
  torn_fueled (fun n => (value_mono n d).1) (fun n s h => (value_runs n d).1 s (by omega)) fun n => (torn_value n d).1 k

end

/-! ### Skipped values -/

section
variable [Has E invalidNumber]

omit [Eofs E] in
theorem torn_skipExponent : Torn E none (outside k) (outside k) True skipExponent := by
  unfold skipExponent
  torn
omit [Eofs E] [Has E invalidNumber] in
theorem ends_skipExponent : Ends E True (outside k) (outside k) (skipExponent []) := ends_pure _

omit [Eofs E] in
theorem torn_skipFraction : Torn E none (outside k) (outside k) True skipFraction := by
  have := torn_skipExponent (E := E) (k := k)
  have := ends_skipExponent (E := E) (k := k)
  unfold skipFraction; torn
omit [Eofs E] [Has E invalidNumber] in
theorem ends_skipFraction : Ends E True (outside k) (outside k) (skipFraction []) := ends_pure _

omit [Eofs E] in
theorem torn_skipNumber : Torn E none (outside k) (outside k) True skipNumber := by
  have := torn_skipFraction (E := E) (k := k)
  have := ends_skipFraction (E := E) (k := k)
  unfold skipNumber
  torn

omit [Has E invalidNumber] in
theorem torn_skipEscape : Torn E none (escaped k) (inside k) False skipEscape := by
  have h1 := torn_hexEscape (E := E) (k := k)
  unfold skipEscape
  refine torn_next (starved_ends (starved_here _ (by fit))) fun c => ?_
  rw [show step (escaped k) c = (inside k) from rfl]
  split
  · contradiction
  · exact torn_bind_sure h1 fun _ => torn_pure _
  · split
    · exact torn_pure _
    · exact torn_here _

omit [Has E invalidNumber] in
theorem torn_skipChars : ∀ n, Torn E none (inside k) (outside k) False (skipChars n) := by
  intro n
  induction n with
  | zero => exact torn_halt
  | succ n ih =>
    have h1 := torn_skipEscape (E := E) (k := k)
    unfold skipChars
    refine torn_peek (starved_ends (starved_here _ (by fit))) fun c => ?_
    dsimp only
    split
    · rename_i hc
      exact torn_eat (if_pos hc)
    · rename_i hq
      split
      · rename_i hc
        exact torn_eat_bind ((if_neg hq).trans (if_pos hc)) (torn_bind_sure h1 fun _ => ih)
      · rename_i hc
        split
        · exact torn_here _
        · exact torn_eat_bind ((if_neg hq).trans (if_neg hc)) ih

omit [Has E invalidNumber] in
theorem torn_skipString : Torn E none (inside k) (outside k) False (fueled skipChars) :=
  torn_fueled skipChars_mono skipChars_runs torn_skipChars

omit [Has E invalidNumber] in
theorem torn_skipKey : Torn E none (outside (.curly :: k)) (outside (.curly :: k)) False skipKey := by
  have := torn_skipString (E := E) (k := .curly :: k)
  unfold skipKey; torn

omit [Has E invalidNumber] in
theorem starved_skipItems : ∀ n b, Starved E (outside (.square :: k)) (skipItems n b [])
  | 0, _ => by rw [skipItems]; exact .stuck _
  | _ + 1, _ => by rw [skipItems]; exact .err eofList [] Has.mem (by fit)

omit [Has E invalidNumber] in
theorem starved_skipPairs : ∀ n b, Starved E (outside (.curly :: k)) (skipPairs n b [])
  | 0, _ => by rw [skipPairs]; exact .stuck _
  | _ + 1, _ => by rw [skipPairs]; exact .err eofObject [] Has.mem (by fit)

theorem torn_skip : ∀ n, (∀ k, Torn E none (outside k) (outside k) True (skip n)) ∧
    (∀ k b, Torn E none (outside (.square :: k)) (outside k) True (skipItems n b)) ∧ ∀ k b, Torn E none (outside (.curly :: k)) (outside k) True (skipPairs n b) := by
  intro n
  induction n with
  | zero => exact ⟨fun _ => torn_halt, fun _ _ => torn_halt, fun _ _ => torn_halt⟩
  | succ n ih =>
    obtain ⟨i1, i2, i3⟩ := ih
    refine ⟨fun k => ?_, fun k b => ?_, fun k b => ?_⟩
    · have a1 := i2 k true
      have a3 := i3 k true
      have c1 := torn_skipString (E := E) (k := k)
      have c2 := torn_skipNumber (E := E) (k := k)
      have j1 := torn_ident (E := E) (k := k) (str! "ull") (by decide)
      have j2 := torn_ident (E := E) (k := k) (str! "rue") (by decide)
      have j3 := torn_ident (E := E) (k := k) (str! "alse") (by decide)
      rw [skip]; torn
    · have a0 := i1 (.square :: k)
      have a2 := i2 k false
      have b2 := starved_skipItems (E := E) (k := k) n false
      rw [skipItems]; cases b <;> simp only [if_true, Bool.false_eq_true, if_false] <;> torn
    · have a0 := i1 (.curly :: k)
      have a4 := i3 k false
      have b4 := starved_skipPairs (E := E) (k := k) n false
      have c3 := torn_skipKey (E := E) (k := k)
      rw [skipPairs]; cases b <;> simp only [if_true, Bool.false_eq_true, if_false] <;> torn

theorem torn_ignored : Torn E none (outside k) (outside k) True ignored := by
  have : Torn E none (outside k) (outside k) True (fueled skip) :=
    torn_fueled (fun n => (skip_mono n).1) (fun n s h => (skip_runs n).1 s (by omega)) fun n => (torn_skip n).1 k
  unfold ignored; torn

end

/-! ### Header and body -/

theorem torn_text (T : Texts) : Torn E none (outside k) (outside k) True (readText T) :=
  sure (torn_visitStr _ _ fun _ => torn_pure _)

theorem torn_time (x : Ext) (T : Texts) : Torn E none (outside k) (outside k) True (readTime x T) :=
  sure (torn_visitStr _ _ fun _ => by torn)

theorem torn_headerField {T : Texts} (n : Str) (f : Reader Json) (h : headerField T n = some f) :
    Torn E none (outside k) (outside k) True f := by
  unfold headerField at h
  split at h
  · cases h; exact torn_text T
  · split at h
    · cases h; exact torn_variant _ _
    · cases h

theorem torn_bodyFields {x : Ext} {T : Texts} : ∀ p ∈ bodyFields x T, Torn E none (outside k) (outside k) True p.2 := by
  intro p hp
  have h1 := torn_option (torn_text (E := E) (k := k) T) (starved_visitStr _ _)
  have h2 := torn_option (torn_time (E := E) (k := k) x T) (starved_visitStr _ _)
  unfold bodyFields at hp
  simp only [List.mem_cons, List.not_mem_nil, or_false] at hp
  rcases hp with rfl | rfl | rfl | rfl | rfl | rfl | rfl
  · exact h1
  · exact torn_text T
  · exact h1
  · exact torn_time x T
  · exact torn_text T
  · exact h2
  · exact h2

theorem torn_bodyField {x : Ext} {T : Texts} (n : Str) (f : Reader Json) (h : bodyField x T n = some f) :
    Torn E none (outside k) (outside k) True f := by
  unfold bodyField at h
  simp only [Option.map_eq_some_iff] at h
  obtain ⟨p, hp, rfl⟩ := h
  exact torn_bodyFields p (List.mem_of_find?_eq_some hp)

theorem torn_header (T : Texts) [Has E outOfRange] : Torn E none (outside []) (outside []) True (document (readHeader T)) := by
  have h1 := torn_mono (torn_visitMap (E := E) (required := [str! "typ", str! "alg"])
    (k := []) (fun n f h => ⟨fun _ => torn_headerField (T := T) n f h, good_headerField n f h⟩)
    ⟨fun _ => torn_any (Json.maxDepth - 1), calm_any (Json.maxDepth - 1), total_any (Json.maxDepth - 1)⟩)
    (Q := True) False.elim
  have h3 := torn_wrongType (α := Json) (E := E) (h := none) (p := outside []) (q := outside []) (P := True) T
    (str! "struct ProofJwtHeader")
  have h6 := torn_after h1 (torn_mono (torn_endMap (E := E)) (Q := True) False.elim) starved_endMap
  apply torn_document
  unfold readHeader
  torn

theorem torn_body (x : Ext) (T : Texts) [Has E invalidNumber] :
    Torn E none (outside []) (outside []) True (document (readBody x T)) := by
  have h1 := torn_mono (torn_visitMap (E := E) (required := [str! "aud", str! "iat", str! "nonce"])
    (k := []) (fun n f h => ⟨fun _ => torn_bodyField (x := x) (T := T) n f h, good_bodyField n f h⟩)
    ⟨fun _ => torn_ignored, calm_ignored, total_ignored⟩) (Q := True) False.elim
  have h2 : Torn E none (outside [.square]) (outside [.square]) True
      (visitSeq (str! "ProofJwtBody") 7 0 ((bodyFields x T).map Prod.snd)) :=
    torn_visitSeq _ 0 fun f hf => by
      obtain ⟨p, hp, rfl⟩ := List.mem_map.1 hf
      exact torn_bodyFields p hp
  have h3 := torn_wrongType (α := Json) (E := E) (h := none) (p := outside []) (q := outside []) (P := True) T
    (str! "struct ProofJwtBody")
  have h6 := torn_after h1 (torn_mono (torn_endMap (E := E)) (Q := True) False.elim) starved_endMap
  have h7 := torn_after h2 (torn_mono (torn_endSeq (E := E)) (Q := True) False.elim) starved_endSeq
  apply torn_document
  unfold readBody
  torn

end
end Reading.Quote
end Oid4vci
