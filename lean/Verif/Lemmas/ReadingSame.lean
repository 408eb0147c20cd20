import Verif.Lemmas.ReadingTotal

/-! Readers say the same, whatever follows the octets they have looked at. -/

namespace Oid4vci
namespace Reading

open Json

variable {α β : Type}

/-- The same outcome, with the place counted from the end of another text. -/
def shift (q q' : Str) : Out α → Out α
  | .err m (some l) => .err m (some (l - q.length + q'.length))
  | o => o

/-- What a reader says of `p ++ q` without coming close to `q` it says of `p ++ q'` as well. The three octets are
for the reader of `\u` escapes, which asks for four at once. -/
structure Steady (f : Reader α) : Prop where
  calm : Calm f
  rest : ∀ p q q', 3 ≤ q'.length → q.length < (f (p ++ q)).2.length →
    ∃ r, (f (p ++ q)).2 = r ++ q ∧ f (p ++ q') = (shift q q' (f (p ++ q)).1, r ++ q')
  fault : ∀ p q q' m l r, 3 ≤ q'.length → f (p ++ q) = (.err m (some l), r) → q.length < l →
    ∃ r', f (p ++ q') = (.err m (some (l - q.length + q'.length)), r')

theorem steady_pure (a : α) : Steady (pure a : Reader α) where
  calm := calm_pure a
  rest p q q' _ _ := ⟨p, rfl, rfl⟩
  fault p q q' m l r _ h := by cases h

theorem steady_bind {f : Reader α} {g : α → Reader β} (hf : Steady f) (hg : ∀ a, Steady (g a)) : Steady (f >>= g) := by
  have hrun : ∀ s, (f >>= g) s = match f s with
      | (.ok a, r) => g a r
      | (.err m l, r) => (.err m l, r)
      | (.stuck, r) => (.stuck, r) := fun s => rfl
  refine ⟨calm_bind hf.calm fun a => (hg a).calm, ?_, ?_⟩
  · intro p q q' h3 hq
    have hn := hf.rest p q q' h3
    rw [hrun] at hq ⊢
    rw [hrun]
    rcases h : f (p ++ q) with ⟨a | ⟨m, l⟩ | _, r⟩ <;> rw [h] at hn hq <;> simp only at hn hq ⊢
    · have hlen := (hg a).calm.len r
      obtain ⟨r0, rfl, h2⟩ := hn (by omega)
      rw [h2]
      exact (hg a).rest r0 q q' h3 hq
    · obtain ⟨r0, rfl, h2⟩ := hn hq
      rw [h2]
      refine ⟨r0, rfl, ?_⟩
      cases l <;> rfl
    · obtain ⟨r0, rfl, h2⟩ := hn hq
      rw [h2]
      exact ⟨r0, rfl, rfl⟩
  · intro p q q' m l r h3 hs hq
    have hn := hf.rest p q q' h3
    have hb := hf.fault p q q'
    rw [hrun] at hs ⊢
    rcases h : f (p ++ q) with ⟨a | ⟨m', l'⟩ | _, r1⟩ <;> rw [h] at hn hs <;> simp only at hn hs ⊢
    · have hlen := (hg a).calm.place _ _ _ _ hs
      obtain ⟨r0, rfl, h2⟩ := hn (by omega)
      rw [h2]
      exact (hg a).fault r0 q q' _ _ _ h3 hs hq
    · cases hs
      obtain ⟨r', h2⟩ := hb _ _ _ h3 h hq
      rw [h2]
      exact ⟨r', rfl⟩
    · cases hs

theorem steady_of_ok {f : Reader α} (hc : Calm f) (h : ∀ s, ∃ a r, f s = (.ok a, r)) : Steady f where
  calm := hc
  rest p q q' h3 hq := by
    obtain ⟨a, r, e⟩ := h (p ++ q)
    have := hc.near p q q'
    rw [e] at this hq ⊢
    exact this hq
  fault p q q' m l r _ hs := by
    obtain ⟨a, r, e⟩ := h (p ++ q)
    rw [e] at hs
    cases hs

theorem steady_peek : Steady peek := steady_of_ok calm_peek fun _ => ⟨_, _, rfl⟩
theorem steady_eat : Steady eat := steady_of_ok calm_eat fun _ => ⟨_, _, rfl⟩
theorem steady_next : Steady next := steady_of_ok calm_next fun _ => ⟨_, _, rfl⟩
theorem steady_ws : Steady ws := steady_of_ok calm_ws fun _ => ⟨_, _, rfl⟩
theorem steady_digits : Steady digits := steady_of_ok calm_digits fun _ => ⟨_, _, rfl⟩

theorem steady_here (m : Str) : Steady (here m : Reader α) where
  calm := calm_here m
  rest p q q' _ _ := by
    refine ⟨p, rfl, ?_⟩
    unfold here shift
    simp
  fault p q q' m' l r _ h _ := by
    cases h
    refine ⟨p ++ q', ?_⟩
    unfold here
    simp

theorem steady_ahead (m : Str) : Steady (ahead m : Reader α) where
  calm := calm_ahead m
  rest p q q' _ hq := by
    refine ⟨p, rfl, ?_⟩
    unfold ahead at hq ⊢
    unfold shift
    simp only [List.length_append, Prod.mk.injEq, Out.err.injEq, Option.some.injEq, true_and, and_true] at hq ⊢
    omega
  fault p q q' m' l r _ h hq := by
    cases h
    refine ⟨p ++ q', ?_⟩
    unfold ahead
    simp only [List.length_append, Prod.mk.injEq, Out.err.injEq, Option.some.injEq, true_and, and_true] at hq ⊢
    omega

theorem steady_custom (m : Str) : Steady (custom m : Reader α) where
  calm := calm_custom m
  rest p q q' _ _ := ⟨p, rfl, rfl⟩
  fault p q q' m' l r _ h _ := by cases h

theorem steady_halt : Steady (halt : Reader α) where
  calm := calm_halt
  rest p q q' _ _ := ⟨p, rfl, rfl⟩
  fault p q q' m' l r _ h _ := by cases h

theorem steady_settle {f : Reader α} (hf : Steady f) : Steady (settle f) := by
  have hrun : ∀ s, settle f s = match f s with
      | (.err m none, r) => (.err m (some r.length), r)
      | o => o := fun s => rfl
  refine ⟨calm_settle hf.calm, ?_, ?_⟩
  · intro p q q' h3 hq
    have hn := hf.rest p q q' h3
    rw [hrun] at hq ⊢
    rw [hrun]
    rcases h : f (p ++ q) with ⟨a | ⟨m, _ | l⟩ | _, r⟩ <;> rw [h] at hn hq <;> simp only at hn hq ⊢ <;>
      obtain ⟨r0, rfl, h2⟩ := hn hq <;> rw [h2] <;> refine ⟨r0, rfl, ?_⟩ <;> simp [shift]
  · intro p q q' m l r h3 hs hq
    have hn := hf.rest p q q' h3
    have hb := hf.fault p q q'
    rw [hrun] at hs ⊢
    rcases h : f (p ++ q) with ⟨a | ⟨m', _ | l'⟩ | _, r1⟩ <;> rw [h] at hn hs <;> simp only at hn hs ⊢ <;> cases hs
    · obtain ⟨r0, rfl, h2⟩ := hn hq
      rw [h2]
      exact ⟨r0 ++ q', by simp [shift]⟩
    · obtain ⟨r', h2⟩ := hb _ _ _ h3 h hq
      rw [h2]
      exact ⟨r', rfl⟩

theorem steady_after {f : Reader α} {c : Reader Unit} (hf : Steady f) (hc : Steady c) : Steady (after f c) := by
  have hrun : ∀ s, after f c s = match f s with
      | (.ok a, r) =>
        match c r with
        | (.ok _, r') => (.ok a, r')
        | (.err m l, r') => (.err m l, r')
        | (.stuck, r') => (.stuck, r')
      | (.err m l, r) => (.err m l, (c r).2)
      | (.stuck, r) => (.stuck, r) := fun s => rfl
  refine ⟨calm_after hf.calm hc.calm, ?_, ?_⟩
  · intro p q q' h3 hq
    have hn := hf.rest p q q' h3
    rw [hrun] at hq ⊢
    rw [hrun]
    rcases h : f (p ++ q) with ⟨a | ⟨m, l⟩ | _, r⟩ <;> rw [h] at hn hq <;> simp only at hn hq ⊢
    · have hl := hc.calm.len r
      have hc' := hc.rest
      rcases h4 : c r with ⟨b | ⟨m, l⟩ | _, r'⟩ <;> rw [h4] at hq hl <;> simp only at hq hl ⊢ <;>
        obtain ⟨r0, rfl, h2⟩ := hn (by omega) <;> have := hc' r0 q q' h3 <;> rw [h4] at this <;>
        obtain ⟨r1, rfl, h5⟩ := this hq <;> rw [h2] <;> refine ⟨r1, rfl, ?_⟩ <;> simp only [shift, h5]
      cases l <;> rfl
    · have hl := hc.calm.len r
      obtain ⟨r0, rfl, h2⟩ := hn (by omega)
      obtain ⟨r1, h4, h5⟩ := hc.rest r0 q q' h3 hq
      rw [h2]
      refine ⟨r1, h4, ?_⟩
      cases l <;> simp only [shift, h5]
    · obtain ⟨r0, rfl, h2⟩ := hn hq
      rw [h2]
      exact ⟨r0, rfl, rfl⟩
  · intro p q q' m l r h3 hs hq
    have hn := hf.rest p q q' h3
    have hb := hf.fault p q q'
    rw [hrun] at hs ⊢
    rcases h : f (p ++ q) with ⟨a | ⟨m', l'⟩ | _, r1⟩ <;> rw [h] at hn hs <;> simp only at hn hs ⊢
    · have hl := hc.calm.place r1
      have hc' := hc.fault
      rcases h4 : c r1 with ⟨b | ⟨m', l'⟩ | _, r'⟩ <;> rw [h4] at hs <;> simp only at hs <;> cases hs
      have := hl _ _ _ h4
      obtain ⟨r0, rfl, h2⟩ := hn (by omega)
      obtain ⟨r2, h5⟩ := hc' r0 q q' _ _ _ h3 h4 hq
      rw [h2]
      simp only [shift, h5]
      exact ⟨_, rfl⟩
    · cases hs
      obtain ⟨r', h2⟩ := hb _ _ _ h3 h hq
      rw [h2]
      exact ⟨_, rfl⟩
    · cases hs

theorem steady_ident : ∀ cs : Str, Steady (ident cs) := by
  intro cs
  induction cs with
  | nil => exact steady_pure ()
  | cons c cs ih =>
    unfold ident
    refine steady_bind steady_next fun o => ?_
    split
    · exact steady_here _
    · split
      · exact ih
      · exact steady_here _

/-- Readers built from readers. -/
macro "steady" : tactic => `(tactic| repeat' (first
  | with_reducible exact steady_pure _ | with_reducible exact steady_peek | with_reducible exact steady_next
  | with_reducible exact steady_eat | with_reducible exact steady_ws | with_reducible exact steady_here _
  | with_reducible exact steady_ahead _ | with_reducible exact steady_custom _ | with_reducible exact steady_halt
  | with_reducible exact steady_digits | with_reducible exact steady_ident _
  | with_reducible assumption | with_reducible apply steady_bind | with_reducible apply steady_settle
  | with_reducible apply steady_after | intro _ | split))

theorem steady_expDigits (limit : Option Nat) : ∀ n acc, Steady (expDigits limit n acc) := by
  intro n
  induction n with
  | zero => intro acc; exact steady_halt
  | succ n ih =>
    intro acc
    unfold expDigits
    simp only
    steady
    all_goals exact ih _

theorem steady_hexDigit : Steady hexDigit := by unfold hexDigit; steady

theorem steady_hexDigits : Steady hexDigits := by
  have := steady_hexDigit
  unfold hexDigits
  steady

theorem steady_hexEscape : Steady hexEscape := by
  have e : ∀ s, hexEscape s = if s.length < 4 then (.err eofString (some 0), []) else hexDigits s := fun s => rfl
  refine ⟨calm_hexEscape, ?_, ?_⟩
  · intro p q q' h3 hq
    rw [e] at hq ⊢
    split at hq
    · simp at hq
    · rename_i h4
      have hl := calm_hexDigits.len (p ++ q)
      rw [if_neg h4, e, if_neg (by simp only [List.length_append] at hl h4 ⊢; omega)]
      exact steady_hexDigits.rest p q q' h3 hq
  · intro p q q' m l r h3 hs hq
    rw [e] at hs ⊢
    split at hs
    · cases hs; omega
    · have hl := calm_hexDigits.place _ _ _ _ hs
      rw [if_neg (by simp only [List.length_append] at hl ⊢; omega)]
      exact steady_hexDigits.fault p q q' m l r h3 hs hq

theorem steady_escape : Steady escape := by
  have := steady_hexEscape
  unfold escape
  steady

theorem steady_scan : ∀ n, Steady (scan n) := by
  intro n
  induction n with
  | zero => exact steady_halt
  | succ n ih =>
    have := steady_escape
    unfold scan
    steady

theorem steady_fueled {loop : Nat → Reader α} (hm : ∀ n, Refines (loop n) (loop (n + 1)))
    (hr : ∀ n s, 2 * s.length + 2 ≤ n → Runs (loop n) s) (hc : ∀ n, Steady (loop n)) : Steady (fueled loop) := by
  have h1 : ∀ (p q q' : Str), fueled loop (p ++ q) = loop (2 * (p.length + q.length + q'.length) + 2) (p ++ q) :=
    fun p q q' => fueled_eq hm hr (by simp only [List.length_append]; omega)
  have h2 : ∀ (p q q' : Str), fueled loop (p ++ q') = loop (2 * (p.length + q.length + q'.length) + 2) (p ++ q') :=
    fun p q q' => fueled_eq hm hr (by simp only [List.length_append]; omega)
  refine ⟨calm_fueled hm hr fun n => (hc n).calm, ?_, ?_⟩
  · intro p q q' h3 hq
    rw [h1 p q q'] at hq ⊢
    rw [h2 p q q']
    exact (hc _).rest p q q' h3 hq
  · intro p q q' m l r h3 hs hq
    rw [h1 p q q'] at hs
    rw [h2 p q q']
    exact (hc _).fault p q q' m l r h3 hs hq

theorem steady_exponent (ds fs : Str) : Steady (exponent ds fs) := by
  have : ∀ lim acc, Steady (fueled fun n => expDigits lim n acc) := fun lim acc =>
    steady_fueled (fun n => expDigits_mono lim n acc) (fun n s h => expDigits_runs lim n acc s h)
      (fun n => steady_expDigits lim n acc)
  unfold exponent
  steady
  all_goals exact this _ _

theorem steady_fraction (ds : Str) : Steady (fraction ds) := by
  unfold fraction
  steady
  all_goals exact steady_exponent _ _

theorem steady_integer : Steady integer := by unfold integer; steady

theorem steady_number (neg : Bool) : Steady (number neg) := by
  have h1 := steady_integer
  unfold number
  simp only
  steady
  all_goals exact steady_fraction _

theorem steady_skipExponent : Steady skipExponent := by unfold skipExponent; steady

theorem steady_skipFraction : Steady skipFraction := by
  have := steady_skipExponent
  unfold skipFraction; steady

theorem steady_skipNumber : Steady skipNumber := by
  have := steady_skipFraction
  unfold skipNumber; steady

theorem steady_string : Steady string := by
  have := steady_fueled scan_mono scan_runs steady_scan
  unfold string; steady

theorem steady_skipEscape : Steady skipEscape := by
  have := steady_hexEscape
  unfold skipEscape; steady

theorem steady_skipChars : ∀ n, Steady (skipChars n) := by
  intro n
  induction n with
  | zero => exact steady_halt
  | succ n ih =>
    have := steady_skipEscape
    unfold skipChars; steady

theorem steady_skipString : Steady (fueled skipChars) := steady_fueled skipChars_mono skipChars_runs steady_skipChars

theorem steady_skipKey : Steady skipKey := by
  have := steady_skipString
  unfold skipKey; steady

theorem steady_skip : ∀ n, Steady (skip n) ∧ (∀ b, Steady (skipItems n b)) ∧ ∀ b, Steady (skipPairs n b) := by
  intro n
  induction n with
  | zero => exact ⟨steady_halt, fun _ => steady_halt, fun _ => steady_halt⟩
  | succ n ih =>
    obtain ⟨i1, i2, i3⟩ := ih
    have h1 := steady_skipString
    have h2 := steady_skipNumber
    have h3 := steady_skipKey
    have i2t := i2 true
    have i2f := i2 false
    have i3t := i3 true
    have i3f := i3 false
    refine ⟨?_, fun b => ?_, fun b => ?_⟩
    · rw [skip]; steady
    · rw [skipItems]; steady
    · rw [skipPairs]; cases b <;> simp only [if_true, Bool.false_eq_true, if_false] <;> steady

theorem steady_ignored : Steady ignored := by
  have : Steady (fueled skip) := steady_fueled (fun n => (skip_mono n).1) (fun n s h => (skip_runs n).1 s (by omega))
    fun n => (steady_skip n).1
  unfold ignored; steady

theorem steady_colon : Steady colon := by unfold colon; steady

theorem steady_endMap : Steady endMap := by unfold endMap; steady

theorem steady_endSeq : Steady endSeq := by unfold endSeq; steady

theorem steady_nextKey (b : Bool) : Steady (nextKey b) := by
  have := steady_string
  unfold nextKey
  cases b <;> simp only [if_true, Bool.false_eq_true, if_false] <;> steady

theorem steady_nextItem (b : Bool) : Steady (nextItem b) := by unfold nextItem; steady

theorem steady_value : ∀ n d, Steady (value n d) ∧ (∀ b, Steady (items n d b)) ∧ ∀ b, Steady (pairs n d b) := by
  intro n
  induction n with
  | zero => exact fun d => ⟨steady_halt, fun _ => steady_halt, fun _ => steady_halt⟩
  | succ n ih =>
    intro d
    have h1 := steady_string
    have h2 := steady_number true
    have h3 := steady_number false
    have h4 := steady_endMap
    have h5 := steady_endSeq
    have h6 := steady_colon
    refine ⟨?_, fun b => ?_, fun b => ?_⟩
    · rw [value.eq_def]
      simp only
      cases d with
      | zero => simp only; steady
      | succ d =>
        have i2 := (ih d).2.1 true
        have i3 := (ih d).2.2 true
        simp only; steady
    · have i1 := (ih d).1
      have i2 := (ih d).2.1 false
      have := steady_nextItem b
      rw [items]; steady
    · have i1 := (ih d).1
      have i2 := (ih d).2.2 false
      have := steady_nextKey b
      rw [pairs]; steady

theorem steady_any (d : Nat) : Steady (fueled fun n => value n d) :=
  steady_fueled (fun n => (value_mono n d).1) (fun n s h => (value_runs n d).1 s (by omega)) fun n => (steady_value n d).1

theorem steady_wrongType (T : Texts) (e : Str) : Steady (wrongType T e : Reader α) := by
  have h1 := steady_string
  have h2 := steady_number true
  have h3 := steady_number false
  unfold wrongType; steady

theorem steady_visitStr (T : Texts) (e : Str) {visit : Str → Reader α} (h : ∀ s, Steady (visit s)) :
    Steady (visitStr T e visit) := by
  have h1 := steady_string
  have h2 := steady_wrongType (α := α) T e
  unfold visitStr; steady

theorem steady_unit (T : Texts) : Steady (unit T) := by
  have h2 := steady_wrongType (α := Unit) T (str! "unit")
  unfold unit; steady

theorem steady_option {f : Reader Json} (hf : Steady f) : Steady (option f) := by unfold option; steady

theorem steady_variantName (T : Texts) (names : List Str) : Steady (variantName T names) :=
  steady_visitStr _ _ fun s => by steady

theorem steady_variant (T : Texts) (names : List Str) : Steady (variant T names) := by
  have h1 := steady_variantName T names
  have h2 := steady_unit T
  have h3 := steady_colon
  unfold variant; steady

theorem steady_members {fld : Str → Option (Reader Json)} {other : Reader Json} (hf : ∀ k f, fld k = some f → Steady f)
    (ho : Steady other) : ∀ n b seen, Steady (members fld other n b seen) := by
  intro n
  induction n with
  | zero => exact fun _ _ => steady_halt
  | succ n ih =>
    intro b seen
    have h1 := steady_nextKey b
    have h2 := steady_colon
    unfold members
    steady
    · exact hf _ _ (by assumption)
    · exact ih _ _
    · exact ih _ _

theorem steady_visitMap {fld : Str → Option (Reader Json)} {other : Reader Json} {required : List Str}
    (hf : ∀ k f, fld k = some f → Steady f ∧ Total f) (ho : Steady other ∧ Total other) :
    Steady (visitMap fld other required) := by
  have : Steady (fueled fun n => members fld other n true []) :=
    steady_fueled (fun n => members_mono n _ _)
      (fun n s h => members_runs (fun k f h => ⟨(hf k f h).1.calm, (hf k f h).2⟩) ⟨ho.1.calm, ho.2⟩ n _ _ s h)
      fun n => steady_members (fun k f h => (hf k f h).1) ho.1 n _ _
  unfold visitMap; steady

theorem steady_visitSeq {name : Str} {total : Nat} : ∀ (fs : List (Reader Json)) (i : Nat), (∀ f ∈ fs, Steady f) →
    Steady (visitSeq name total i fs) := by
  intro fs
  induction fs with
  | nil => intro i _; exact steady_pure _
  | cons f fs ih =>
    intro i h
    have h1 := h f (by simp)
    have h2 := ih (i + 1) fun f hf => h f (by simp [hf])
    have h3 := steady_nextItem (decide (i = 0))
    unfold visitSeq; steady

theorem steady_text (T : Texts) : Steady (readText T) := steady_visitStr _ _ fun _ => steady_pure _

theorem steady_time (x : Ext) (T : Texts) : Steady (readTime x T) := steady_visitStr _ _ fun _ => by steady

theorem steady_headerField {T : Texts} (k : Str) (f : Reader Json) (h : headerField T k = some f) : Steady f := by
  unfold headerField at h
  split at h
  · cases h; exact steady_text T
  · split at h
    · cases h; exact steady_variant _ _
    · cases h

theorem steady_bodyFields {x : Ext} {T : Texts} : ∀ p ∈ bodyFields x T, Steady p.2 := by
  intro p hp
  unfold bodyFields at hp
  simp only [List.mem_cons, List.not_mem_nil, or_false] at hp
  rcases hp with rfl | rfl | rfl | rfl | rfl | rfl | rfl
  · exact steady_option (steady_text T)
  · exact steady_text T
  · exact steady_option (steady_text T)
  · exact steady_time x T
  · exact steady_text T
  · exact steady_option (steady_time x T)
  · exact steady_option (steady_time x T)

theorem steady_bodyField {x : Ext} {T : Texts} (k : Str) (f : Reader Json) (h : bodyField x T k = some f) :
    Steady f := by
  unfold bodyField at h
  simp only [Option.map_eq_some_iff] at h
  obtain ⟨p, hp, rfl⟩ := h
  exact steady_bodyFields p (List.mem_of_find?_eq_some hp)

theorem steady_header (T : Texts) : Steady (document (readHeader T)) := by
  have h1 := steady_visitMap (required := [str! "typ", str! "alg"])
    (fun k f h => ⟨steady_headerField (T := T) k f h, (good_headerField k f h).2⟩)
    ⟨steady_any (Json.maxDepth - 1), total_any (Json.maxDepth - 1)⟩
  have h2 := steady_endMap
  have h3 := steady_wrongType (α := Json) T (str! "struct ProofJwtHeader")
  unfold document readHeader
  steady

theorem steady_body (x : Ext) (T : Texts) : Steady (document (readBody x T)) := by
  have h1 := steady_visitMap (required := [str! "aud", str! "iat", str! "nonce"])
    (fun k f h => ⟨steady_bodyField (x := x) (T := T) k f h, (good_bodyField k f h).2⟩)
    ⟨steady_ignored, total_ignored⟩
  have h2 := steady_endMap
  have h4 := steady_endSeq
  have h5 := steady_visitSeq (name := str! "ProofJwtBody") (total := 7) ((bodyFields x T).map Prod.snd) 0
    (by intro f hf; obtain ⟨p, hp, rfl⟩ := List.mem_map.1 hf; exact steady_bodyFields p hp)
  have h3 := steady_wrongType (α := Json) T (str! "struct ProofJwtBody")
  unfold document readBody
  steady

end Reading
end Oid4vci
