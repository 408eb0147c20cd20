import Mathlib.Data.List.TakeWhile
import Verif.Lemmas.ReadingSame

/-! What readers say about the beginning of a text that they read. -/

namespace Oid4vci
namespace Reading

open Json

variable {α β : Type}

/-- A message out of the list `E`, at the end (or no fuel, which does not happen to whole readers). -/
inductive Starved (E : List Str) : Out α × Str → Prop
  | err (m r : Str) (h : m ∈ E) : Starved E (.err m (some 0), r)
  | stuck (r : Str) : Starved E (.stuck, r)

/-- All octets were taken: with a message out of `E`, or a value with `P`. -/
def Ends (E : List Str) (P : Prop) (o : Out α × Str) : Prop := Starved E o ∨ (P ∧ ∃ a, o = (.ok a, []))

/-- What a reader says about the beginning `s` of a text it reads: the same if it does not need more, or that it is at
the end. -/
structure Torn (E : List Str) (P : Prop) (f : Reader α) : Prop where
  cut : ∀ s t a r, f (s ++ t) = (.ok a, r) → (∃ s', r = s' ++ t ∧ f s = (.ok a, s')) ∨ Ends E P (f s)

/-- A message is in the list. -/
class Has (E : List Str) (m : Str) : Prop where
  mem : m ∈ E

variable {E : List Str} {P : Prop}

theorem starved_ends {o : Out α × Str} (h : Starved E o) : Ends E P o := .inl h

theorem starved_here (m : Str) [h : Has E m] : Starved E ((here m : Reader α) []) := .err m [] h.mem
theorem starved_ahead (m : Str) [h : Has E m] : Starved E ((ahead m : Reader α) []) := .err m [] h.mem
theorem starved_halt {s : Str} : Starved E ((halt : Reader α) s) := .stuck _
theorem starved_bind {f : Reader α} {g : α → Reader β} (h : Starved E (f [])) : Starved E ((f >>= g) []) := by
  rw [run_bind]
  generalize f [] = o at h
  cases h with
  | err m r h => exact .err m r h
  | stuck r => exact .stuck r
theorem starved_ws {g : Option Char → Reader β} (h : Starved E (g none [])) : Starved E ((ws >>= g) []) := h
theorem starved_peek {g : Option Char → Reader β} (h : Starved E (g none [])) : Starved E ((peek >>= g) []) := h
theorem starved_next {g : Option Char → Reader β} (h : Starved E (g none [])) : Starved E ((next >>= g) []) := h
theorem starved_eat {g : Unit → Reader β} (h : Starved E (g () [])) : Starved E ((eat >>= g) []) := h
theorem starved_unit_bind {g : Unit → Reader β} (h : Starved E (g () [])) : Starved E (((pure () : Reader Unit) >>= g) []) := h
theorem starved_settle {f : Reader α} (h : Starved E (f [])) : Starved E (settle f []) := by
  unfold settle
  generalize f [] = o at h ⊢
  cases h with
  | err m r h => exact .err m r h
  | stuck r => exact .stuck r
theorem starved_after {f : Reader α} {c : Reader Unit} (h : Starved E (f [])) : Starved E (after f c []) := by
  unfold after
  generalize f [] = o at h ⊢
  cases h with
  | err m r h => exact .err m _ h
  | stuck r => exact .stuck r

theorem ends_pure (a : α) : Ends E True ((pure a : Reader α) []) := .inr ⟨trivial, a, rfl⟩
theorem ends_eat : Ends E True (eat []) := .inr ⟨trivial, (), rfl⟩
theorem ends_digits : Ends E True (digits []) := .inr ⟨trivial, [], rfl⟩
theorem ends_bind {f : Reader α} {g : α → Reader β} (h : Ends E True (f [])) (hg : ∀ a, Ends E P (g a [])) :
    Ends E P ((f >>= g) []) := by
  rcases h with h | ⟨-, a, e⟩
  · exact .inl (starved_bind h)
  · rw [run_bind, e]; exact hg a
theorem ends_ws {g : Option Char → Reader β} (h : Ends E P (g none [])) : Ends E P ((ws >>= g) []) := h
theorem ends_peek {g : Option Char → Reader β} (h : Ends E P (g none [])) : Ends E P ((peek >>= g) []) := h
theorem ends_next {g : Option Char → Reader β} (h : Ends E P (g none [])) : Ends E P ((next >>= g) []) := h
theorem ends_eat_bind {g : Unit → Reader β} (h : Ends E P (g () [])) : Ends E P ((eat >>= g) []) := h

theorem torn_mono {Q : Prop} {f : Reader α} (h : Torn E P f) (hq : P → Q) : Torn E Q f where
  cut s t a r e := by
    rcases h.cut s t a r e with h | h | ⟨hp, h⟩
    · exact .inl h
    · exact .inr (.inl h)
    · exact .inr (.inr ⟨hq hp, h⟩)

theorem sure {f : Reader α} (h : Torn E False f) : Torn E P f := torn_mono h False.elim

theorem torn_never {f : Reader α} (h : ∀ s a r, f s ≠ (.ok a, r)) : Torn E P f where
  cut _ _ _ _ e := absurd e (h _ _ _)

theorem torn_pure (a : α) : Torn E P (pure a : Reader α) where
  cut s t a' r e := by cases e; exact .inl ⟨s, rfl, rfl⟩

theorem torn_here (m : Str) : Torn E P (here m : Reader α) := torn_never (fun _ _ _ h => by cases h)
theorem torn_ahead (m : Str) : Torn E P (ahead m : Reader α) := torn_never (fun _ _ _ h => by cases h)
theorem torn_custom (m : Str) : Torn E P (custom m : Reader α) := torn_never (fun _ _ _ h => by cases h)
theorem torn_halt : Torn E P (halt : Reader α) := torn_never (fun _ _ _ h => by cases h)

theorem torn_eat : Torn E True eat where
  cut s t a r e := by
    cases e
    cases s with
    | nil => exact .inr ends_eat
    | cons c s => exact .inl ⟨s, rfl, rfl⟩

theorem torn_digits : Torn E True digits where
  cut s t a r e := by
    cases e
    by_cases h : ∀ c ∈ s, isDigit c = true
    · refine .inr (.inr ⟨trivial, s.takeWhile isDigit, ?_⟩)
      unfold digits
      rw [List.dropWhile_eq_nil_iff.2 h]
    · have hn : s.dropWhile isDigit ≠ [] := fun hs => h (List.dropWhile_eq_nil_iff.1 hs)
      refine .inl ⟨s.dropWhile isDigit, ?_, ?_⟩
      · rw [List.dropWhile_append, if_neg]
        simpa using hn
      · unfold digits
        congr 2
        rw [List.takeWhile_append, if_neg]
        intro hl
        apply hn
        have := List.takeWhile_append_dropWhile (p := isDigit) (l := s)
        have h2 := congrArg List.length this
        rw [List.length_append] at h2
        exact List.eq_nil_of_length_eq_zero (by omega)

theorem torn_bind {f : Reader α} {g : α → Reader β} (hf : Torn E True f) (hg : ∀ a, Torn E P (g a))
    (hh : ∀ a, Ends E P (g a [])) : Torn E P (f >>= g) where
  cut s t b r e := by
    rw [run_bind] at e ⊢
    rcases h : f (s ++ t) with ⟨a | ⟨m, l⟩ | _, r1⟩ <;> rw [h] at e <;> simp only at e
    · rcases hf.cut s t a r1 h with ⟨s', rfl, h1⟩ | h1 | ⟨-, a', h1⟩
      · rw [h1]; exact (hg a).cut s' t b r e
      · generalize f s = o at h1 ⊢
        cases h1 with
        | err m r h => exact .inr (.inl (.err m r h))
        | stuck r => exact .inr (.inl (.stuck r))
      · rw [h1]; exact .inr (hh a')
    · cases e
    · cases e

theorem torn_bind_sure {f : Reader α} {g : α → Reader β} (hf : Torn E False f) (hg : ∀ a, Torn E P (g a)) :
    Torn E P (f >>= g) where
  cut s t b r e := by
    rw [run_bind] at e ⊢
    rcases h : f (s ++ t) with ⟨a | ⟨m, l⟩ | _, r1⟩ <;> rw [h] at e <;> simp only at e
    · rcases hf.cut s t a r1 h with ⟨s', rfl, h1⟩ | h1 | ⟨h, -⟩
      · rw [h1]; exact (hg a).cut s' t b r e
      · generalize f s = o at h1 ⊢
        cases h1 with
        | err m r h => exact .inr (.inl (.err m r h))
        | stuck r => exact .inr (.inl (.stuck r))
      · exact h.elim
    · cases e
    · cases e

theorem torn_eat_bind {g : Unit → Reader β} (hg : Torn E P (g ())) (hh : Ends E P (g () [])) :
    Torn E P (eat >>= g) := torn_bind torn_eat (fun _ => hg) fun _ => hh

theorem torn_next {g : Option Char → Reader β} (hh : Ends E P (g none [])) (hg : ∀ c, Torn E P (g (some c))) :
    Torn E P (next >>= g) where
  cut s t b r e := by
    cases s with
    | nil => exact .inr hh
    | cons c s => exact (hg c).cut s t b r e

theorem torn_peek {g : Option Char → Reader β} (hh : Ends E P (g none [])) (hg : ∀ c, Torn E P (g (some c))) :
    Torn E P (peek >>= g) where
  cut s t b r e := by
    cases s with
    | nil => exact .inr hh
    | cons c s => exact (hg c).cut (c :: s) t b r e

theorem torn_ws {g : Option Char → Reader β} (hh : Ends E P (g none [])) (hg : ∀ c, Torn E P (g (some c))) :
    Torn E P (ws >>= g) where
  cut s t b r e := by
    have hr : ∀ s, (ws >>= g) s = g (skipWs s).head? (skipWs s) := fun s => rfl
    rw [hr] at e ⊢
    by_cases h : ∀ c ∈ s, isWs c = true
    · have : skipWs s = [] := List.dropWhile_eq_nil_iff.2 h
      rw [this]
      exact .inr hh
    · have h1 : skipWs (s ++ t) = skipWs s ++ t := by
        unfold skipWs
        rw [List.dropWhile_append, if_neg]
        simpa only [List.isEmpty_iff] using fun hs => h (List.dropWhile_eq_nil_iff.1 hs)
      rw [h1] at e
      cases hs : skipWs s with
      | nil => exact absurd (List.dropWhile_eq_nil_iff.1 hs) h
      | cons c s' =>
        rw [hs] at e
        exact (hg c).cut (c :: s') t b r e

theorem torn_settle {f : Reader α} (hf : Torn E P f) : Torn E P (settle f) where
  cut s t a r e := by
    have hr : ∀ s, settle f s = match f s with
      | (.err m none, r) => (.err m (some r.length), r)
      | o => o := fun s => rfl
    rw [hr] at e ⊢
    rcases h : f (s ++ t) with ⟨a' | ⟨m, _ | l⟩ | _, r1⟩ <;> rw [h] at e <;> simp only at e <;> cases e
    rcases hf.cut s t a r h with ⟨s', rfl, h1⟩ | h1 | ⟨hp, a', h1⟩
    · rw [h1]; exact .inl ⟨s', rfl, rfl⟩
    · generalize f s = o at h1 ⊢
      cases h1 with
      | err m r h => exact .inr (.inl (.err m r h))
      | stuck r => exact .inr (.inl (.stuck r))
    · rw [h1]; exact .inr (.inr ⟨hp, a', rfl⟩)

theorem torn_after {f : Reader α} {c : Reader Unit} (hf : Torn E True f) (hc : Torn E True c)
    (hh : Starved E (c [])) : Torn E True (after f c) where
  cut s t a r e := by
    unfold after at e ⊢
    rcases h : f (s ++ t) with ⟨a' | ⟨m, l⟩ | _, r1⟩ <;> rw [h] at e <;> simp only at e
    · rcases h2 : c r1 with ⟨u | ⟨m, l⟩ | _, r2⟩ <;> rw [h2] at e <;> simp only at e <;> cases e
      rcases hf.cut s t a r1 h with ⟨s', rfl, h1⟩ | h1 | ⟨-, a', h1⟩
      · rw [h1]
        dsimp only
        rcases hc.cut s' t u r h2 with ⟨s2, rfl, h3⟩ | h3 | ⟨-, u', h3⟩
        · rw [h3]; exact .inl ⟨s2, rfl, rfl⟩
        · generalize c s' = o at h3 ⊢
          cases h3 with
          | err m r h => exact .inr (.inl (.err m r h))
          | stuck r => exact .inr (.inl (.stuck r))
        · rw [h3]; exact .inr (.inr ⟨trivial, _, rfl⟩)
      · generalize f s = o at h1 ⊢
        cases h1 with
        | err m r h => exact .inr (.inl (.err m _ h))
        | stuck r => exact .inr (.inl (.stuck r))
      · rw [h1]
        dsimp only
        generalize c [] = o at hh ⊢
        cases hh with
        | err m r h => exact .inr (.inl (.err m r h))
        | stuck r => exact .inr (.inl (.stuck r))
    · cases e
    · cases e

theorem torn_fueled {loop : Nat → Reader α} (hm : ∀ n, Refines (loop n) (loop (n + 1)))
    (hr : ∀ n s, 2 * s.length + 2 ≤ n → Runs (loop n) s) (hc : ∀ n, Torn E P (loop n)) : Torn E P (fueled loop) where
  cut s t a r e := by
    have h1 := fueled_eq hm hr (n := 2 * (s ++ t).length + 2) (s := s) (by simp)
    rw [h1]
    exact (hc _).cut s t a r e

/-- Readers built from readers. -/
macro "torn" : tactic => `(tactic| repeat' (first
  | with_reducible assumption
  | with_reducible exact torn_pure _ | with_reducible exact torn_here _ | with_reducible exact torn_ahead _
  | with_reducible exact torn_custom _ | with_reducible exact torn_halt | with_reducible exact torn_eat
  | with_reducible exact torn_digits
  | with_reducible exact starved_halt | with_reducible exact starved_here _ | with_reducible exact starved_ahead _
  | with_reducible exact starved_ends (starved_here _) | with_reducible exact starved_ends (starved_ahead _)
  | with_reducible exact ends_pure _ | with_reducible exact ends_eat | with_reducible exact ends_digits
  | with_reducible apply starved_ws | with_reducible apply starved_peek | with_reducible apply starved_next
  | with_reducible apply starved_eat | with_reducible apply starved_unit_bind | with_reducible apply starved_settle
  | with_reducible apply starved_after
  | with_reducible exact starved_bind (by with_reducible assumption)
  | with_reducible exact starved_ends (by with_reducible assumption)
  | with_reducible exact starved_ends (starved_bind (by with_reducible assumption))
  | with_reducible exact starved_ends (starved_after (by with_reducible assumption))
  | with_reducible apply ends_ws | with_reducible apply ends_peek | with_reducible apply ends_next
  | with_reducible apply ends_eat_bind | with_reducible apply ends_bind
  | with_reducible apply torn_ws | with_reducible apply torn_peek | with_reducible apply torn_next
  | with_reducible apply torn_eat_bind | with_reducible exact sure (by with_reducible assumption)
  | with_reducible apply torn_bind_sure (by with_reducible assumption)
  | with_reducible apply torn_bind | with_reducible apply torn_settle | with_reducible apply torn_after
  | dsimp only
  | intro _ | split))

/-- The messages for what ends too early. -/
class Eofs (E : List Str) : Prop where
  list : eofList ∈ E
  object : eofObject ∈ E
  string : eofString ∈ E
  value : eofValue ∈ E

instance [h : Eofs E] : Has E eofList := ⟨h.list⟩
instance [h : Eofs E] : Has E eofObject := ⟨h.object⟩
instance [h : Eofs E] : Has E eofString := ⟨h.string⟩
instance [h : Eofs E] : Has E eofValue := ⟨h.value⟩

section
variable [Eofs E]

theorem torn_ident : ∀ cs : Str, Torn E False (ident cs) := by
  intro cs
  induction cs with
  | nil => exact torn_pure ()
  | cons c cs ih => unfold ident; torn

theorem ends_ident (cs : Str) : Ends E True (ident cs []) := by
  cases cs with
  | nil => exact ends_pure ()
  | cons c cs => unfold ident; torn

theorem torn_hexDigit : Torn E False hexDigit := by unfold hexDigit; torn

theorem torn_hexDigits : Torn E False hexDigits := by
  have := torn_hexDigit (E := E)
  unfold hexDigits; torn

theorem torn_hexEscape : Torn E False hexEscape where
  cut s t a r e := by
    unfold hexEscape at e ⊢
    by_cases h : s.length < 4
    · rw [if_pos h]
      exact .inr (.inl (.err eofString [] Has.mem))
    · rw [if_neg h]
      rw [if_neg (by simp; omega)] at e
      exact torn_hexDigits.cut s t a r e

theorem starved_hexEscape : Starved E (hexEscape []) := .err eofString [] Has.mem

theorem torn_escape : Torn E False escape := by
  have := torn_hexEscape (E := E)
  unfold escape; torn

theorem torn_scan : ∀ n, Torn E False (scan n) := by
  intro n
  induction n with
  | zero => exact torn_halt
  | succ n ih =>
    have := torn_escape (E := E)
    unfold scan; torn

theorem torn_string : Torn E False string := by
  have := torn_fueled scan_mono scan_runs (torn_scan (E := E))
  unfold string; torn

theorem starved_string : Starved E (string []) := .err eofString [] Has.mem

theorem torn_nextKey (b : Bool) : Torn E False (nextKey b) := by
  have := torn_string (E := E)
  have := starved_string (E := E)
  unfold nextKey
  cases b
  all_goals
    simp only [if_true, if_false, Bool.false_eq_true]
    torn

theorem starved_nextKey (b : Bool) : Starved E (nextKey b []) := .err eofObject [] Has.mem

theorem torn_nextItem (b : Bool) : Torn E False (nextItem b) := by
  unfold nextItem; torn

theorem starved_nextItem (b : Bool) : Starved E (nextItem b []) := .err eofList [] Has.mem

theorem torn_colon : Torn E True colon := by unfold colon; torn
theorem starved_colon : Starved E (colon []) := .err eofObject [] Has.mem
theorem torn_endMap : Torn E True endMap := by unfold endMap; torn
theorem starved_endMap : Starved E (endMap []) := .err eofObject [] Has.mem
theorem torn_endSeq : Torn E True endSeq := by
  have h : Torn E True (do
      eat
      match ← ws with
      | none => ahead trailingCharacters
      | some x => if x = ']' then ahead trailingComma else ahead trailingCharacters : Reader Unit) := by
    refine torn_never fun s a r h => ?_
    have hr : ∀ s, (do
      eat
      match ← ws with
      | none => ahead trailingCharacters
      | some x => if x = ']' then ahead trailingComma else ahead trailingCharacters : Reader Unit) s =
        (match (skipWs s.tail).head? with
          | none => (ahead trailingCharacters : Reader Unit)
          | some x => if x = ']' then ahead trailingComma else ahead trailingCharacters) (skipWs s.tail) := fun _ => rfl
    rw [hr] at h
    rcases hd : (skipWs s.tail).head? with _ | x <;> rw [hd] at h <;> dsimp only at h
    · cases h
    · split at h <;> cases h
  unfold endSeq
  refine torn_ws (starved_ends (starved_ahead _)) fun c => ?_
  dsimp only
  split
  · exact torn_eat
  · split
    · exact h
    · exact torn_ahead _
theorem starved_endSeq : Starved E (endSeq []) := .err eofList [] Has.mem

omit [Eofs E] in
theorem torn_wrongType (T : Texts) (e : Str) : Torn E P (wrongType T e : Reader α) := by
  refine torn_never fun s a r h => ?_
  have h1 := (got_wrongType T e s : got (wrongType T e : Reader α) s = none)
  rw [got, h] at h1
  cases h1

theorem torn_visitStr (T : Texts) (e : Str) {visit : Str → Reader α} (h : ∀ s, Torn E False (visit s)) :
    Torn E False (visitStr T e visit) := by
  have h1 := torn_string (E := E)
  have h2 := starved_string (E := E)
  have h3 := torn_wrongType (α := α) (E := E) (P := False) T e
  unfold visitStr
  torn

theorem starved_visitStr (T : Texts) (e : Str) {visit : Str → Reader α} : Starved E (visitStr T e visit []) :=
  .err eofValue [] Has.mem

theorem torn_unit (T : Texts) : Torn E True (unit T) := by
  have h2 := torn_wrongType (α := Unit) (E := E) (P := True) T (str! "unit")
  have h3 := torn_mono (torn_ident (E := E) (str! "ull")) (Q := True) False.elim
  have h4 := ends_ident (E := E) (str! "ull")
  unfold unit; torn

theorem starved_unit (T : Texts) : Starved E (unit T []) := .err eofValue [] Has.mem

theorem torn_option {f : Reader Json} (hf : Torn E True f) (hs : Starved E (f [])) : Torn E True (option f) := by
  have h3 := torn_ident (E := E) (str! "ull")
  have h4 := ends_ident (E := E) (str! "ull")
  unfold option; torn

omit [Eofs E] in
theorem starved_option {f : Reader Json} (hs : Starved E (f [])) : Starved E (option f []) := hs

theorem torn_variantName (T : Texts) (names : List Str) : Torn E False (variantName T names) :=
  torn_visitStr _ _ fun s => by torn

theorem starved_variantName (T : Texts) (names : List Str) : Starved E (variantName T names []) := starved_visitStr _ _

theorem torn_variant (T : Texts) (names : List Str) : Torn E True (variant T names) := by
  have h1 := torn_variantName (E := E) T names
  have h2 := torn_unit (E := E) T
  have h3 := torn_colon (E := E)
  have h4 := starved_variantName (E := E) T names
  have h5 := starved_unit (E := E) T
  have h6 := starved_colon (E := E)
  unfold variant; torn

theorem starved_variant (T : Texts) (names : List Str) : Starved E (variant T names []) := .err eofValue [] Has.mem

theorem starved_members {fld : Str → Option (Reader Json)} {other : Reader Json} : ∀ n b seen,
    Starved E (members fld other n b seen [])
  | 0, _, _ => .stuck _
  | _ + 1, _, _ => .err eofObject [] Has.mem

theorem torn_members {fld : Str → Option (Reader Json)} {other : Reader Json}
    (hf : ∀ k f, fld k = some f → Torn E True f ∧ Starved E (f [])) (ho : Torn E True other ∧ Starved E (other [])) :
    ∀ n b seen, Torn E False (members fld other n b seen) := by
  intro n
  induction n with
  | zero => exact fun _ _ => torn_halt
  | succ n ih =>
    intro b seen
    have h1 := torn_nextKey (E := E) b
    have h2 := torn_colon (E := E)
    have h3 := starved_colon (E := E)
    have tail : ∀ (k : Str) (f : Reader Json) seen', Torn E True f ∧ Starved E (f []) → Torn E False (do
        colon
        let v ← f
        let kvs ← members fld other n false seen'
        pure ((k, v) :: kvs)) := by
      intro k f seen' h
      obtain ⟨i1, i2⟩ := h
      have i3 := ih false seen'
      have i4 := starved_members (E := E) (fld := fld) (other := other) n false seen'
      torn
    unfold members
    refine torn_bind_sure h1 fun o => ?_
    cases o with
    | none => exact torn_pure _
    | some k =>
      dsimp only
      split
      · split
        · exact torn_custom _
        · exact tail _ _ _ (hf _ _ (by assumption))
      · exact tail _ _ _ ho

theorem torn_visitMap {fld : Str → Option (Reader Json)} {other : Reader Json} {required : List Str}
    (hf : ∀ k f, fld k = some f → (Torn E True f ∧ Starved E (f [])) ∧ Calm f ∧ Total f)
    (ho : (Torn E True other ∧ Starved E (other [])) ∧ Calm other ∧ Total other) :
    Torn E False (visitMap fld other required) := by
  have : Torn E False (fueled fun n => members fld other n true []) :=
    torn_fueled (fun n => members_mono n _ _)
      (fun n s h => members_runs (fun k f h => (hf k f h).2) ho.2 n _ _ s h)
      fun n => torn_members (fun k f h => (hf k f h).1) ho.1 n _ _
  unfold visitMap; torn

theorem starved_visitMap {fld : Str → Option (Reader Json)} {other : Reader Json} {required : List Str} :
    Starved E (visitMap fld other required []) := .err eofObject [] Has.mem

theorem ends_visitSeq {name : Str} {total : Nat} : ∀ (fs : List (Reader Json)) (i : Nat),
    Ends E True (visitSeq name total i fs [])
  | [], _ => ends_pure _
  | _ :: _, _ => .inl (.err eofList [] Has.mem)

theorem torn_visitSeq {name : Str} {total : Nat} : ∀ (fs : List (Reader Json)) (i : Nat),
    (∀ f ∈ fs, Torn E True f ∧ Starved E (f [])) → Torn E True (visitSeq name total i fs) := by
  intro fs
  induction fs with
  | nil => intro i _; exact torn_pure _
  | cons f fs ih =>
    intro i h
    obtain ⟨h1, h4⟩ := h f (by simp)
    have h2 := ih (i + 1) fun f hf => h f (by simp [hf])
    have h3 := torn_nextItem (E := E) (decide (i = 0))
    have h5 := ends_visitSeq (E := E) (name := name) (total := total) fs (i + 1)
    unfold visitSeq; torn

omit [Eofs E] in
theorem torn_document {f : Reader Json} (hf : Torn E True f) : Torn E True (document f) := by
  unfold document; torn

/-! ### Values -/

section
variable [Has E outOfRange]

omit [Eofs E] in
theorem torn_expDigits (limit : Option Nat) : ∀ n acc, Torn E True (expDigits limit n acc) := by
  intro n
  induction n with
  | zero => exact fun _ => torn_halt
  | succ n ih =>
    intro acc
    have h : ∀ acc, Ends E True (expDigits limit n acc []) := fun acc => by
      cases n with
      | zero => exact .inl (.stuck _)
      | succ n => exact ends_pure _
    unfold expDigits
    torn
    all_goals first | exact ih _ | exact h _

theorem torn_exponent (ds fs : Str) : Torn E True (exponent ds fs) := by
  have h1 : ∀ limit acc, Torn E True (fueled fun n => expDigits limit n acc) := fun limit acc =>
    torn_fueled (fun n => expDigits_mono limit n acc) (fun n s h => expDigits_runs limit n acc s h)
      fun n => torn_expDigits limit n acc
  have h2 : ∀ limit acc, Ends E True ((fueled fun n => expDigits limit n acc) []) := fun _ _ => ends_pure _
  unfold exponent
  torn
  all_goals exact h1 _ _

omit [Eofs E] [Has E outOfRange] in
theorem ends_exponent (ds fs : Str) : Ends E True (exponent ds fs []) := ends_pure _

theorem torn_fraction (ds : Str) : Torn E True (fraction ds) := by
  have h1 := torn_exponent (E := E) ds
  have h2 := ends_exponent (E := E) ds
  unfold fraction
  torn
  all_goals first | exact h1 _ | exact h2 _

omit [Eofs E] [Has E outOfRange] in
theorem ends_fraction (ds : Str) : Ends E True (fraction ds []) := ends_pure _

omit [Has E outOfRange] in
theorem torn_integer : Torn E True integer := by unfold integer; torn

omit [Has E outOfRange] in
theorem starved_integer : Starved E (integer []) := .err eofValue [] Has.mem

theorem torn_number (neg : Bool) : Torn E True (number neg) := by
  have h1 := torn_integer (E := E)
  have h2 := torn_fraction (E := E)
  have h3 := ends_fraction (E := E)
  unfold number
  torn
  all_goals first | exact h2 _ | exact h3 _ | (generalize readFloat _ = o; cases o <;> torn)

omit [Has E outOfRange] in
theorem starved_number (neg : Bool) : Starved E (number neg []) := .err eofValue [] Has.mem

omit [Has E outOfRange] in
theorem starved_value : ∀ n d, Starved E (value n d [])
  | 0, _ => .stuck _
  | _ + 1, _ => by rw [value.eq_def]; exact .err eofValue [] Has.mem

omit [Has E outOfRange] in
theorem starved_items : ∀ n d b, Starved E (items n d b [])
  | 0, _, _ => by rw [items]; exact .stuck _
  | _ + 1, _, _ => by rw [items]; exact .err eofList [] Has.mem

omit [Has E outOfRange] in
theorem starved_pairs : ∀ n d b, Starved E (pairs n d b [])
  | 0, _, _ => by rw [pairs]; exact .stuck _
  | _ + 1, _, _ => by rw [pairs]; exact .err eofObject [] Has.mem

theorem torn_value : ∀ n d, Torn E True (value n d) ∧ (∀ b, Torn E True (items n d b)) ∧
    ∀ b, Torn E True (pairs n d b) := by
  intro n
  induction n with
  | zero => exact fun d => ⟨torn_halt, fun _ => torn_halt, fun _ => torn_halt⟩
  | succ n ih =>
    intro d
    have h1 := torn_string (E := E)
    have h2 := torn_number (E := E) true
    have h3 := torn_number (E := E) false
    have h4 := torn_endMap (E := E)
    have h5 := torn_endSeq (E := E)
    have h6 := torn_colon (E := E)
    have k1 := starved_string (E := E)
    have k2 := starved_number (E := E) true
    have k3 := starved_number (E := E) false
    have k4 := starved_endMap (E := E)
    have k5 := starved_endSeq (E := E)
    have k6 := starved_colon (E := E)
    have j1 := torn_ident (E := E) (str! "ull")
    have j2 := torn_ident (E := E) (str! "rue")
    have j3 := torn_ident (E := E) (str! "alse")
    have l1 := ends_ident (E := E) (str! "ull")
    have l2 := ends_ident (E := E) (str! "rue")
    have l3 := ends_ident (E := E) (str! "alse")
    refine ⟨?_, fun b => ?_, fun b => ?_⟩
    · rw [value.eq_def]
      simp only
      cases d with
      | zero => simp only; torn
      | succ d =>
        have i2 := (ih d).2.1 true
        have i3 := (ih d).2.2 true
        have i4 := starved_items (E := E) n d true
        have i5 := starved_pairs (E := E) n d true
        simp only; torn
    · have i1 := (ih d).1
      have i2 := (ih d).2.1 false
      have i4 := starved_items (E := E) n d false
      have i5 := starved_value (E := E) n d
      have := torn_nextItem (E := E) b
      rw [items]; torn
    · have i1 := (ih d).1
      have i2 := (ih d).2.2 false
      have i4 := starved_pairs (E := E) n d false
      have i5 := starved_value (E := E) n d
      have := torn_nextKey (E := E) b
      rw [pairs]; torn

theorem torn_any (d : Nat) : Torn E True (fueled fun n => value n d) :=
  torn_fueled (fun n => (value_mono n d).1) (fun n s h => (value_runs n d).1 s (by omega)) fun n => (torn_value n d).1

omit [Has E outOfRange] in
theorem starved_any (d : Nat) : Starved E ((fueled fun n => value n d) []) := starved_value _ _

end

/-! ### Skipped values -/

section
variable [Has E invalidNumber]

omit [Eofs E] in
theorem torn_skipExponent : Torn E True skipExponent := by unfold skipExponent; torn
omit [Eofs E] [Has E invalidNumber] in
theorem ends_skipExponent : Ends E True (skipExponent []) := ends_pure _

omit [Eofs E] in
theorem torn_skipFraction : Torn E True skipFraction := by
  have := torn_skipExponent (E := E)
  have := ends_skipExponent (E := E)
  unfold skipFraction; torn
omit [Eofs E] [Has E invalidNumber] in
theorem ends_skipFraction : Ends E True (skipFraction []) := ends_pure _

omit [Eofs E] in
theorem torn_skipNumber : Torn E True skipNumber := by
  have := torn_skipFraction (E := E)
  have := ends_skipFraction (E := E)
  unfold skipNumber; torn
omit [Eofs E] in
theorem starved_skipNumber : Starved E (skipNumber []) := .err invalidNumber [] Has.mem

omit [Has E invalidNumber] in
theorem torn_skipEscape : Torn E False skipEscape := by
  have := torn_hexEscape (E := E)
  unfold skipEscape; torn
omit [Has E invalidNumber] in
theorem starved_skipEscape : Starved E (skipEscape []) := .err eofString [] Has.mem

omit [Has E invalidNumber] in
theorem starved_skipChars : ∀ n, Starved E (skipChars n [])
  | 0 => .stuck _
  | _ + 1 => .err eofString [] Has.mem

omit [Has E invalidNumber] in
theorem torn_skipChars : ∀ n, Torn E True (skipChars n) := by
  intro n
  induction n with
  | zero => exact torn_halt
  | succ n ih =>
    have := torn_skipEscape (E := E)
    have := starved_skipEscape (E := E)
    have := starved_skipChars (E := E) n
    unfold skipChars; torn

omit [Has E invalidNumber] in
theorem torn_skipString : Torn E True (fueled skipChars) := torn_fueled skipChars_mono skipChars_runs torn_skipChars
omit [Has E invalidNumber] in
theorem starved_skipString : Starved E (fueled skipChars []) := starved_skipChars _

omit [Has E invalidNumber] in
theorem torn_skipKey : Torn E True skipKey := by
  have := torn_skipString (E := E)
  have := starved_skipString (E := E)
  unfold skipKey; torn
omit [Has E invalidNumber] in
theorem starved_skipKey : Starved E (skipKey []) := .err eofObject [] Has.mem

omit [Has E invalidNumber] in
theorem starved_skip : ∀ n, Starved E (skip n [])
  | 0 => .stuck _
  | _ + 1 => by rw [skip]; exact .err eofValue [] Has.mem

omit [Has E invalidNumber] in
theorem starved_skipItems : ∀ n b, Starved E (skipItems n b [])
  | 0, _ => by rw [skipItems]; exact .stuck _
  | _ + 1, _ => by rw [skipItems]; exact .err eofList [] Has.mem

omit [Has E invalidNumber] in
theorem starved_skipPairs : ∀ n b, Starved E (skipPairs n b [])
  | 0, _ => by rw [skipPairs]; exact .stuck _
  | _ + 1, _ => by rw [skipPairs]; exact .err eofObject [] Has.mem

theorem torn_skip : ∀ n, Torn E True (skip n) ∧ (∀ b, Torn E True (skipItems n b)) ∧
    ∀ b, Torn E True (skipPairs n b) := by
  intro n
  induction n with
  | zero => exact ⟨torn_halt, fun _ => torn_halt, fun _ => torn_halt⟩
  | succ n ih =>
    obtain ⟨i1, i2, i3⟩ := ih
    have a1 := i2 true
    have a2 := i2 false
    have a3 := i3 true
    have a4 := i3 false
    have b0 := starved_skip (E := E) n
    have b1 := starved_skipItems (E := E) n true
    have b2 := starved_skipItems (E := E) n false
    have b3 := starved_skipPairs (E := E) n true
    have b4 := starved_skipPairs (E := E) n false
    have c1 := torn_skipString (E := E)
    have c2 := torn_skipNumber (E := E)
    have c3 := torn_skipKey (E := E)
    have d1 := starved_skipString (E := E)
    have d2 := starved_skipNumber (E := E)
    have d3 := starved_skipKey (E := E)
    have j1 := torn_ident (E := E) (str! "ull")
    have j2 := torn_ident (E := E) (str! "rue")
    have j3 := torn_ident (E := E) (str! "alse")
    have l1 := ends_ident (E := E) (str! "ull")
    have l2 := ends_ident (E := E) (str! "rue")
    have l3 := ends_ident (E := E) (str! "alse")
    refine ⟨?_, fun b => ?_, fun b => ?_⟩
    · rw [skip]; torn
    · rw [skipItems]; cases b <;> simp only [if_true, Bool.false_eq_true, if_false] <;> torn
    · rw [skipPairs]; cases b <;> simp only [if_true, Bool.false_eq_true, if_false] <;> torn

theorem torn_ignored : Torn E True ignored := by
  have : Torn E True (fueled skip) := torn_fueled (fun n => (skip_mono n).1) (fun n s h => (skip_runs n).1 s (by omega))
    fun n => (torn_skip n).1
  unfold ignored; torn

omit [Has E invalidNumber] in
theorem starved_ignored : Starved E (ignored []) := starved_bind (starved_skip _)

end

/-! ### Header and body -/

theorem torn_text (T : Texts) : Torn E True (readText T) := sure (torn_visitStr _ _ fun _ => torn_pure _)

theorem torn_time (x : Ext) (T : Texts) : Torn E True (readTime x T) := sure (torn_visitStr _ _ fun _ => by torn)

theorem torn_headerField {T : Texts} (k : Str) (f : Reader Json) (h : headerField T k = some f) :
    Torn E True f ∧ Starved E (f []) := by
  unfold headerField at h
  split at h
  · cases h; exact ⟨torn_text T, starved_visitStr _ _⟩
  · split at h
    · cases h; exact ⟨torn_variant _ _, starved_variant _ _⟩
    · cases h

theorem torn_bodyFields {x : Ext} {T : Texts} : ∀ p ∈ bodyFields x T, Torn E True p.2 ∧ Starved E (p.2 []) := by
  intro p hp
  have h1 : Torn E True (readText T) ∧ Starved E (readText T []) := ⟨torn_text T, starved_visitStr _ _⟩
  have h2 : Torn E True (readTime x T) ∧ Starved E (readTime x T []) := ⟨torn_time x T, starved_visitStr _ _⟩
  unfold bodyFields at hp
  simp only [List.mem_cons, List.not_mem_nil, or_false] at hp
  rcases hp with rfl | rfl | rfl | rfl | rfl | rfl | rfl
  · exact ⟨torn_option h1.1 h1.2, starved_option h1.2⟩
  · exact h1
  · exact ⟨torn_option h1.1 h1.2, starved_option h1.2⟩
  · exact h2
  · exact h1
  · exact ⟨torn_option h2.1 h2.2, starved_option h2.2⟩
  · exact ⟨torn_option h2.1 h2.2, starved_option h2.2⟩

theorem torn_bodyField {x : Ext} {T : Texts} (k : Str) (f : Reader Json) (h : bodyField x T k = some f) :
    Torn E True f ∧ Starved E (f []) := by
  unfold bodyField at h
  simp only [Option.map_eq_some_iff] at h
  obtain ⟨p, hp, rfl⟩ := h
  exact torn_bodyFields p (List.mem_of_find?_eq_some hp)

theorem torn_header (T : Texts) [Has E outOfRange] : Torn E True (document (readHeader T)) := by
  have h1 := torn_mono (torn_visitMap (E := E) (required := [str! "typ", str! "alg"])
    (fun k f h => ⟨torn_headerField (T := T) k f h, good_headerField k f h⟩)
    ⟨⟨torn_any (Json.maxDepth - 1), starved_any _⟩, calm_any (Json.maxDepth - 1), total_any (Json.maxDepth - 1)⟩)
    (Q := True) False.elim
  have h2 := torn_endMap (E := E)
  have h3 := torn_wrongType (α := Json) (E := E) (P := True) T (str! "struct ProofJwtHeader")
  have h4 := starved_endMap (E := E)
  have h5 := starved_visitMap (E := E) (fld := headerField T) (other := fueled fun n => value n (Json.maxDepth - 1))
    (required := [str! "typ", str! "alg"])
  apply torn_document
  unfold readHeader
  torn

theorem torn_bodySeq (x : Ext) (T : Texts) :
    Torn E True (visitSeq (str! "ProofJwtBody") 7 0 ((bodyFields x T).map Prod.snd)) :=
  torn_visitSeq _ 0 fun f hf => by
    obtain ⟨p, hp, rfl⟩ := List.mem_map.1 hf
    exact torn_bodyFields p hp

theorem torn_body (x : Ext) (T : Texts) [Has E invalidNumber] : Torn E True (document (readBody x T)) := by
  have h1 := torn_mono (torn_visitMap (E := E) (required := [str! "aud", str! "iat", str! "nonce"])
    (fun k f h => ⟨torn_bodyField (x := x) (T := T) k f h, good_bodyField k f h⟩)
    ⟨⟨torn_ignored, starved_ignored⟩, calm_ignored, total_ignored⟩) (Q := True) False.elim
  have h2 := torn_endMap (E := E)
  have h3 := torn_wrongType (α := Json) (E := E) (P := True) T (str! "struct ProofJwtBody")
  have h4 := starved_endMap (E := E)
  have h5 := starved_visitMap (E := E) (fld := bodyField x T) (other := ignored)
    (required := [str! "aud", str! "iat", str! "nonce"])
  have h6 := torn_bodySeq (E := E) x T
  have h7 : Starved E (visitSeq (str! "ProofJwtBody") 7 0 ((bodyFields x T).map Prod.snd) []) :=
    .err eofList [] Has.mem
  have h8 := torn_endSeq (E := E)
  have h9 := starved_endSeq (E := E)
  apply torn_document
  unfold readBody
  torn

/-- The body as an array. -/
def listBody (x : Ext) (T : Texts) : Reader Json :=
  settle do
    let _ ← ws
    eat
    let vs ← after (visitSeq (str! "ProofJwtBody") 7 0 ((bodyFields x T).map Prod.snd)) endSeq
    pure (.arr vs)

theorem torn_listBody (x : Ext) (T : Texts) : Torn E True (document (listBody x T)) := by
  have h6 := torn_bodySeq (E := E) x T
  have h7 : Starved E (visitSeq (str! "ProofJwtBody") 7 0 ((bodyFields x T).map Prod.snd) []) :=
    .err eofList [] Has.mem
  have h8 := torn_endSeq (E := E)
  have h9 := starved_endSeq (E := E)
  apply torn_document
  unfold listBody
  torn

omit [Eofs E] in
theorem listBody_eq (x : Ext) (T : Texts) {s : Str} (h : (skipWs s).head? = some '[') :
    document (readBody x T) s = document (listBody x T) s := by
  have : readBody x T s = listBody x T s := by
    have h1 : ∀ g : Option Char → Reader Json, (ws >>= g) s = g (skipWs s).head? (skipWs s) := fun g => rfl
    unfold readBody listBody settle
    rw [h1, h1, h]
    rfl
  unfold document
  rw [run_bind, run_bind, this]

end

end Reading
end Oid4vci
