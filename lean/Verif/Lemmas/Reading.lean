import Verif.Base.Reading
import Verif.Lemmas.Skip

/-! The reader that reports errors reads what the parser reads. -/

namespace Oid4vci
namespace Reading

open Json Spec

variable {α β : Type}

/-- The result of a reader, errors aside. -/
def got (f : Reader α) (s : Str) : Option (α × Str) :=
  match f s with
  | (.ok a, r) => some (a, r)
  | _ => none

theorem got_eq_some {f : Reader α} {s r : Str} {a : α} : got f s = some (a, r) ↔ f s = (.ok a, r) := by
  unfold got
  split
  · rename_i a' r' h; rw [h]; simp
  · rename_i h
    simp only [reduceCtorEq, false_iff]
    intro h'; exact h a r h'

theorem run_bind (f : Reader α) (g : α → Reader β) (s : Str) : (f >>= g) s =
    match f s with
    | (.ok a, r) => g a r
    | (.err m l, r) => (.err m l, r)
    | (.stuck, r) => (.stuck, r) := rfl

@[simp] theorem got_bind (f : Reader α) (g : α → Reader β) (s : Str) :
    got (f >>= g) s = (got f s).bind fun p => got (g p.1) p.2 := by
  unfold got
  rw [run_bind]
  rcases f s with ⟨a | ⟨m, l⟩ | _, r⟩ <;> rfl

@[simp] theorem got_pure (a : α) (s : Str) : got (pure a) s = some (a, s) := rfl
@[simp] theorem got_peek (s : Str) : got peek s = some (s.head?, s) := rfl
@[simp] theorem got_next (s : Str) : got next s = some (s.head?, s.tail) := rfl
@[simp] theorem got_eat (s : Str) : got eat s = some ((), s.tail) := rfl
@[simp] theorem got_ws (s : Str) : got ws s = some ((skipWs s).head?, skipWs s) := rfl
@[simp] theorem got_here (m s : Str) : got (here m : Reader α) s = none := rfl
@[simp] theorem got_ahead (m s : Str) : got (ahead m : Reader α) s = none := rfl
@[simp] theorem got_custom (m s : Str) : got (custom m : Reader α) s = none := rfl
@[simp] theorem got_halt (s : Str) : got (halt : Reader α) s = none := rfl
@[simp] theorem got_digits (s : Str) : got digits s = some (s.takeWhile isDigit, s.dropWhile isDigit) := rfl
@[simp] theorem got_fueled (f : Nat → Reader α) (s : Str) : got (fueled f) s = got (f (2 * s.length + 2)) s := rfl

@[simp] theorem got_settle (f : Reader α) (s : Str) : got (settle f) s = got f s := by
  unfold got settle
  rcases f s with ⟨a | ⟨m, _ | l⟩ | _, r⟩ <;> rfl

@[simp] theorem got_after (f : Reader α) (c : Reader Unit) (s : Str) :
    got (after f c) s = (got f s).bind fun p => (got c p.2).map fun q => (p.1, q.2) := by
  unfold got after
  rcases f s with ⟨a | ⟨m, l⟩ | _, r⟩
  · simp only [Option.bind_some]
    rcases c r with ⟨a | ⟨m, l⟩ | _, r⟩ <;> rfl
  all_goals rfl

/-! ### Words -/

theorem got_ident (w s : Str) : got (ident w) s = if w <+: s then some ((), s.drop w.length) else none := by
  induction w generalizing s with
  | nil => simp [ident]
  | cons c w ih =>
    rw [ident]
    cases s with
    | nil => simp
    | cons x s =>
      simp only [got_bind, got_next, List.head?_cons, List.tail_cons, Option.bind_some]
      by_cases h : x = c
      · subst h; simp [ih, List.cons_prefix_cons]
      · simp [h, List.cons_prefix_cons, Ne.symm h]

/-! ### Numbers -/

/-- The value of digits after those with the value `acc`. -/
def valFrom (acc : Nat) (ds : Str) : Nat := ds.foldl (fun a c => a * 10 + (c.toNat - 48)) acc

theorem le_valFrom (acc : Nat) (ds : Str) : acc ≤ valFrom acc ds := by
  induction ds generalizing acc with
  | nil => exact Nat.le_refl _
  | cons c ds ih =>
    have := ih (acc * 10 + (c.toNat - 48))
    simp only [valFrom, List.foldl_cons] at *
    omega

theorem any_lt_mono {l : Option Nat} {a b : Nat} (h : a ≤ b) (ha : l.any (· < a) = true) :
    l.any (· < b) = true := by
  cases l with
  | none => cases ha
  | some k => simp at *; omega

theorem got_expDigits (l : Option Nat) : ∀ (n : Nat) (s : Str) (acc : Nat), s.length < n →
    l.any (· < acc) = false →
    got (expDigits l n acc) s =
      if l.any (· < valFrom acc (s.takeWhile isDigit)) then none
      else some (s.takeWhile isDigit, s.dropWhile isDigit) := by
  intro n
  induction n with
  | zero => intro s acc h; omega
  | succ n ih =>
    intro s acc hn hacc
    rw [expDigits]
    cases s with
    | nil =>
      have h : ¬ l.any (fun x => decide (x < valFrom acc ([].takeWhile isDigit))) = true := by
        rw [Bool.not_eq_true]; exact hacc
      rw [if_neg h]; rfl
    | cons c s =>
      simp only [got_bind, got_peek, List.head?_cons, Option.bind_some]
      by_cases hc : isDigit c
      · simp only [hc, if_true, got_bind, got_eat, Option.bind_some, List.tail_cons,
          List.takeWhile_cons_of_pos, List.dropWhile_cons_of_pos]
        have hv : valFrom acc (c :: s.takeWhile isDigit) =
            valFrom (acc * 10 + (c.toNat - 48)) (s.takeWhile isDigit) := rfl
        rw [hv]
        cases ho : l.any (· < acc * 10 + (c.toNat - 48)) with
        | true =>
          have := any_lt_mono (le_valFrom _ (s.takeWhile isDigit)) ho
          simp [this]
        | false =>
          have := ih s _ (by simp only [List.length_cons] at hn; omega) ho
          simp only [got_bind, this, Bool.false_eq_true, if_false]
          split <;> simp
      · simp [hc, valFrom, hacc]

theorem isDigit_sign {c : Char} (h : isDigit c = true) : c ≠ '+' ∧ c ≠ '-' := by
  constructor <;> rintro rfl <;> cases h

/-- The exponent is so large that the number is refused before its end. -/
def tooFar (ds fs e : Str) : Bool := (expLimit ds fs).any fun (k : Nat) => decide ((k : Int) < Json.exponent e)

theorem digit_le {ds fs : Str} (l : Option Nat) (hl : l = none ∨ l = expLimit ds fs) {c : Char}
    (hc : isDigit c = true) : l.any (· < c.toNat - 48) = false := by
  rcases hl with rfl | rfl
  · rfl
  · unfold expLimit
    simp only [isDigit, Bool.and_eq_true, decide_eq_true_eq] at hc
    simp only
    split
    · rfl
    · simp only [Option.any_some, decide_eq_false_iff_not]; omega

theorem tooFar_nil (ds fs : Str) : tooFar ds fs [] = false := by
  unfold tooFar
  cases expLimit ds fs with
  | none => rfl
  | some k => exact decide_eq_false (show ¬ ((k : Int) < 0) by omega)

theorem got_exponent (ds fs s : Str) : got (exponent ds fs) s =
    (parseExp s).bind fun p => if tooFar ds fs p.1 then none else some p := by
  unfold exponent parseExp
  cases s with
  | nil => simp [tooFar_nil]
  | cons e r =>
    simp only [got_bind, got_peek, List.head?_cons, Option.bind_some]
    by_cases he : e = 'e' ∨ e = 'E'
    swap
    · simp [he, tooFar_nil]
    simp only [he, if_true, got_bind, got_eat, List.tail_cons, Option.bind_some, got_peek]
    cases r with
    | nil => simp
    | cons x r =>
      simp only [List.head?_cons]
      by_cases hx : x = '+' ∨ x = '-'
      · simp only [hx, if_true, got_bind, got_eat, List.tail_cons, Option.bind_some, got_pure, got_next]
        cases r with
        | nil => simp
        | cons c r =>
          simp only [List.head?_cons, List.tail_cons]
          by_cases hc : isDigit c
          · simp only [hc, if_true, got_bind, got_fueled, List.takeWhile_cons_of_pos,
              List.dropWhile_cons_of_pos, reduceCtorEq, if_false, Option.bind_some]
            rw [got_expDigits _ _ _ _ (by omega) (digit_le (ds := ds) (fs := fs) _ (by split <;> simp) hc)]
            have hv : valFrom (c.toNat - 48) (r.takeWhile isDigit) = digitsVal (c :: r.takeWhile isDigit) := by
              simp [valFrom, digitsVal]
            rw [hv]
            unfold tooFar
            rcases hx with rfl | rfl
            · have hex : Json.exponent (e :: '+' :: c :: r.takeWhile isDigit) = digitsVal (c :: r.takeWhile isDigit) := by
                simp [Json.exponent]
              rw [hex]
              simp only [List.cons.injEq, Char.reduceEq, and_true, if_false, Nat.cast_lt]
              split <;> simp_all
            · have hex : Json.exponent (e :: '-' :: c :: r.takeWhile isDigit) = -(digitsVal (c :: r.takeWhile isDigit) : Int) := by
                simp [Json.exponent]
              rw [hex]
              have : ((expLimit ds fs).any fun (k : Nat) => decide ((k : Int) < -(digitsVal (c :: r.takeWhile isDigit) : Int))) = false := by
                cases expLimit ds fs with
                | none => rfl
                | some k => simp
              simp [this]
          · simp [hc]
      · simp only [hx, if_false, got_pure, Option.bind_some, got_next, List.head?_cons, List.tail_cons]
        by_cases hc : isDigit x
        · simp only [hc, if_true, got_bind, got_fueled, List.takeWhile_cons_of_pos,
            List.dropWhile_cons_of_pos, reduceCtorEq, if_false, Option.bind_some]
          rw [got_expDigits _ _ _ _ (by omega) (digit_le (ds := ds) (fs := fs) _ (by simp) hc)]
          have hv : valFrom (x.toNat - 48) (r.takeWhile isDigit) = digitsVal (x :: r.takeWhile isDigit) := by
            simp [valFrom, digitsVal]
          rw [hv]
          unfold tooFar
          have hex : Json.exponent (e :: x :: r.takeWhile isDigit) = digitsVal (x :: r.takeWhile isDigit) := by
            have := isDigit_sign hc
            simp [Json.exponent, this.1, this.2]
          rw [hex]
          simp only [Nat.cast_lt]
          split <;> simp_all
        · simp [hc]

theorem got_fraction (ds s : Str) : got (fraction ds) s = (parseFrac s).bind fun p =>
    if tooFar ds ((p.1.drop 1).takeWhile isDigit) (p.1.drop (1 + ((p.1.drop 1).takeWhile isDigit).length)) = true ∧
        p.1.head? = some '.' ∨ tooFar ds [] p.1 = true ∧ p.1.head? ≠ some '.' then none else some p := by
  unfold fraction
  cases s with
  | nil => simp [parseFrac, parseExp, tooFar_nil]
  | cons c r =>
    simp only [got_bind, got_peek, List.head?_cons, Option.bind_some]
    by_cases hc : c = '.'
    · subst hc
      simp only [if_true, got_bind, got_eat, List.tail_cons, Option.bind_some, got_digits, parseFrac]
      by_cases hd : r.takeWhile isDigit = []
      · simp only [hd, if_true, got_bind, got_peek, Option.bind_some]
        cases (r.dropWhile isDigit).head? <;> simp
      · simp only [hd, if_false, got_bind, got_exponent]
        cases hp : parseExp (r.dropWhile isDigit) with
        | none => simp
        | some p =>
          have htw : (r.takeWhile isDigit ++ p.1).takeWhile isDigit = r.takeWhile isDigit := by
            have h1 := (takeWhile_dropWhile_digits r).2
            rw [List.takeWhile_append_of_pos h1]
            have h2 : p.1.takeWhile isDigit = [] := by
              obtain ⟨he, -⟩ := parseExp_sound hp
              rcases he with he | ⟨_, t, _, e, hm, sg, _, he⟩
              · rw [he]; rfl
              · rw [he]
                simp only [List.mem_cons, List.not_mem_nil, or_false] at hm
                rcases hm with rfl | rfl <;> rfl
            rw [h2, List.append_nil]
          simp only [Option.bind_some, Option.map_some, List.drop_succ_cons, List.drop_zero, htw, List.head?_cons, and_true,
            ne_eq, not_true_eq_false, and_false, or_false]
          have hdr : ('.' :: (r.takeWhile isDigit ++ p.1)).drop (1 + (r.takeWhile isDigit).length) = p.1 := by
            rw [Nat.add_comm, List.drop_succ_cons, List.drop_left]
          rw [hdr]
          split <;> simp
    · simp only [hc, if_false, got_exponent]
      have hpf : parseFrac (c :: r) = parseExp (c :: r) := by
        unfold parseFrac
        split
        · rename_i h; cases h; exact absurd rfl hc
        · rfl
      rw [hpf]
      cases hp : parseExp (c :: r) with
      | none => rfl
      | some p =>
        have hh : p.1.head? ≠ some '.' := by
          obtain ⟨he, -⟩ := parseExp_sound hp
          rcases he with he | ⟨_, t, _, e, hm, sg, _, he⟩
          · rw [he]; simp
          · rw [he]
            simp only [List.mem_cons, List.not_mem_nil, or_false] at hm
            rcases hm with rfl | rfl <;> simp
        simp [hh]

theorem readFloat_tooFar {ds fr : Str} {neg : Bool} (hd : ∀ c ∈ ds, isDigit c = true) (hne : ds ≠ [])
    (hfr : fr.takeWhile isDigit = [])
    (h : tooFar ds ((fr.drop 1).takeWhile isDigit) (fr.drop (1 + ((fr.drop 1).takeWhile isDigit).length)) = true ∧
        fr.head? = some '.' ∨ tooFar ds [] fr = true ∧ fr.head? ≠ some '.') :
    readFloat ((if neg then ['-'] else []) ++ ds ++ fr) = none := by
  have key : ∀ (x y : Nat × Nat) (e : Int) (k : Nat), y.1 ≠ 0 → ((max 2147483647 (308 + y.2) : Nat) : Int) < e →
      fromParts y.1 (e + (k : Nat) - (y.2 : Int)) = none := by
    intro x y e k h0 hlt
    unfold fromParts
    have h1 : ¬ e + (k : Int) - (y.2 : Int) < 0 := by omega
    have h2 : ¬ e + (k : Int) - (y.2 : Int) ≤ 308 := by omega
    simp only [h1, h0, h2, if_false]
  have hs : (if ((if neg then ['-'] else []) ++ ds ++ fr).head? = some '-' then
      ((if neg then ['-'] else []) ++ ds ++ fr).tail else (if neg then ['-'] else []) ++ ds ++ fr) = ds ++ fr := by
    cases neg with
    | true => simp
    | false =>
      cases ds with
      | nil => exact absurd rfl hne
      | cons c ds =>
        have := (isDigit_sign (hd c (by simp))).2
        simp [this]
  have htw : (ds ++ fr).takeWhile isDigit = ds := by
    rw [List.takeWhile_append_of_pos hd, hfr, List.append_nil]
  have hdw : (ds ++ fr).dropWhile isDigit = fr := by
    rw [List.dropWhile_append_of_pos hd]
    cases fr with
    | nil => rfl
    | cons c fr =>
      rw [List.takeWhile_cons] at hfr
      split at hfr
      · cases hfr
      · rename_i h; rw [List.dropWhile_cons_of_neg h]
  unfold readFloat
  simp only [hs, htw, hdw, Option.map_eq_none_iff]
  have split : ∀ (fs e : Str), tooFar ds fs e = true →
      fromParts (accumulate (accumulate 0 ds).1 fs).1
        (Json.exponent e + ((ds.length - (accumulate 0 ds).2 : Nat) : Int) - ((accumulate (accumulate 0 ds).1 fs).2 : Int)) = none := by
    intro fs e ht
    unfold tooFar expLimit at ht
    simp only at ht
    split at ht
    · cases ht
    · rename_i h0
      simp only [Option.any_some, decide_eq_true_eq] at ht
      exact key (0, 0) (accumulate (accumulate 0 ds).1 fs) _ _ h0 ht
  rcases h with ⟨h, hh⟩ | ⟨h, hh⟩
  · obtain ⟨c, r, rfl⟩ : ∃ c r, fr = c :: r := by
      cases fr with
      | nil => simp at hh
      | cons c r => exact ⟨c, r, rfl⟩
    simp only [List.drop_succ_cons, List.drop_zero, List.head?_cons] at h hh
    cases hh
    simp only [List.head?_cons, if_true, List.tail_cons]
    have e : ('.' :: r : Str).drop (1 + (r.takeWhile isDigit).length) = r.dropWhile isDigit := by
      rw [Nat.add_comm, List.drop_succ_cons]
      conv_lhs => rw [(takeWhile_dropWhile_digits r).1]
      rw [List.takeWhile_append_dropWhile]
      conv_lhs => arg 2; rw [(takeWhile_dropWhile_digits r).1]
      rw [List.drop_left]
    have := split _ _ h
    rwa [e] at this
  · simp only [hh, if_false]
    exact split _ _ h

theorem parseFrac_noDigit {s : Str} {p : Str × Str} (h : parseFrac s = some p) : p.1.takeWhile isDigit = [] := by
  obtain ⟨f, x, hf, hx, he, -⟩ := parseFrac_sound (e := p.1) (r := p.2) h
  rw [he]
  rcases hf with rfl | ⟨_, t, _, rfl⟩
  · rcases hx with rfl | ⟨_, t, _, e, hm, sg, _, rfl⟩
    · rfl
    · simp only [List.mem_cons, List.not_mem_nil, or_false] at hm
      rcases hm with rfl | rfl <;> rfl
  · rfl

theorem got_integer (s : Str) : got integer s =
    if s.takeWhile isDigit = [] then none
    else if (s.takeWhile isDigit).head? = some '0' ∧ s.takeWhile isDigit ≠ ['0'] then none
    else some (s.takeWhile isDigit, s.dropWhile isDigit) := by
  unfold integer
  cases s with
  | nil => simp
  | cons c r =>
    simp only [got_bind, got_next, List.head?_cons, Option.bind_some, List.tail_cons]
    by_cases h0 : c = '0'
    · subst h0
      have hz : isDigit '0' = true := rfl
      simp only [if_true, got_bind, got_peek, Option.bind_some, List.takeWhile_cons_of_pos hz,
        List.dropWhile_cons_of_pos hz, reduceCtorEq, if_false, List.head?_cons, true_and, ne_eq]
      cases r with
      | nil => simp
      | cons x r =>
        by_cases hx : isDigit x <;> simp [hx]
    · by_cases hc : isDigit c
      · simp [h0, hc]
      · simp [h0, hc]

/-- A number is read as the parser reads it. -/
theorem got_number (neg : Bool) (s : Str) : got (number neg) s = readNumber neg s := by
  unfold number readNumber parseNumber
  simp only [got_bind, got_integer]
  by_cases h1 : s.takeWhile isDigit = []
  · simp [h1]
  simp only [h1, if_false]
  by_cases h2 : (s.takeWhile isDigit).head? = some '0' ∧ s.takeWhile isDigit ≠ ['0']
  · simp [h2]
  simp only [h2, if_false, Option.bind_some, got_fraction]
  cases hp : parseFrac (s.dropWhile isDigit) with
  | none => simp
  | some p =>
    obtain ⟨fr, r⟩ := p
    simp only [Option.bind_some]
    split
    · rename_i ht
      have hne : fr ≠ [] := by
        rintro rfl
        simp [tooFar_nil] at ht
      have := readFloat_tooFar (neg := neg) (takeWhile_dropWhile_digits s).2 h1 (parseFrac_noDigit hp) ht
      simp only [ne_eq, hne, not_false_eq_true, if_true, Option.bind_none, this, Option.map_none]
    · simp only [Option.bind_some]
      by_cases hf : fr = []
      · subst hf
        simp only [ne_eq, not_true_eq_false, if_false]
        cases neg with
        | true =>
          simp only [if_true]
          split
          · simp only []
            generalize readFloat _ = o
            cases o <;> rfl
          · simp
        | false =>
          simp only [Bool.false_eq_true, if_false]
          split
          · simp
          · simp only []
            generalize readFloat _ = o
            cases o <;> rfl
      · simp only [ne_eq, hf, not_false_eq_true, if_true]
        cases readFloat _ <;> simp

theorem got_skipExponent (s : Str) : got skipExponent s = (parseExp s).map fun p => ((), p.2) := by
  unfold skipExponent parseExp
  cases s with
  | nil => simp
  | cons e r =>
    simp only [got_bind, got_peek, List.head?_cons, Option.bind_some]
    by_cases he : e = 'e' ∨ e = 'E'
    swap
    · simp [he]
    simp only [he, if_true, got_bind, got_eat, List.tail_cons, Option.bind_some, got_peek]
    cases r with
    | nil => simp
    | cons x r =>
      simp only [List.head?_cons]
      by_cases hx : x = '+' ∨ x = '-'
      · simp only [hx, if_true, got_eat, List.tail_cons, Option.bind_some, got_next]
        cases r with
        | nil => simp
        | cons c r => by_cases hc : isDigit c <;> simp [hc]
      · simp only [hx, if_false, got_pure, Option.bind_some, got_next, List.head?_cons, List.tail_cons]
        by_cases hc : isDigit x <;> simp [hc]

theorem got_skipFraction (s : Str) : got skipFraction s = (parseFrac s).map fun p => ((), p.2) := by
  unfold skipFraction
  cases s with
  | nil => simp [parseFrac, parseExp]
  | cons c r =>
    simp only [got_bind, got_peek, List.head?_cons, Option.bind_some]
    by_cases hc : c = '.'
    · subst hc
      simp only [if_true, got_bind, got_eat, List.tail_cons, Option.bind_some, got_digits, parseFrac]
      by_cases hd : r.takeWhile isDigit = []
      · simp [hd]
      · simp [hd, got_skipExponent, Function.comp_def]
    · simp only [hc, if_false, got_skipExponent]
      have hpf : parseFrac (c :: r) = parseExp (c :: r) := by
        unfold parseFrac
        split
        · rename_i h; cases h; exact absurd rfl hc
        · rfl
      rw [hpf]

theorem got_skipNumber (neg : Bool) (s : Str) : got skipNumber s = (parseNumber neg s).map fun p => ((), p.2) := by
  have hi : got skipNumber s = (got integer s).bind fun p => got skipFraction p.2 := by
    unfold skipNumber integer
    cases s with
    | nil => simp
    | cons c r =>
      simp only [got_bind, got_next, List.head?_cons, Option.bind_some, List.tail_cons]
      by_cases h0 : c = '0'
      · simp only [h0, if_true, got_bind, got_peek, Option.bind_some]
        cases r with
        | nil => simp
        | cons x r => by_cases hx : isDigit x <;> simp [hx]
      · by_cases hc : isDigit c <;> simp [h0, hc]
  rw [hi, got_integer]
  unfold parseNumber
  by_cases h1 : s.takeWhile isDigit = []
  · simp [h1]
  simp only [h1, if_false]
  by_cases h2 : (s.takeWhile isDigit).head? = some '0' ∧ s.takeWhile isDigit ≠ ['0']
  · simp [h2]
  simp only [h2, if_false, Option.bind_some, got_skipFraction]
  cases parseFrac (s.dropWhile isDigit) with
  | none => rfl
  | some p =>
    simp only [Option.map_some]
    repeat' split
    all_goals rfl

/-! ### Strings -/

theorem got_hexDigit (c : Char) (r : Str) : got hexDigit (c :: r) = (hexVal c).map fun v => ((c, v), r) := by
  unfold hexDigit
  simp only [got_bind, got_next, List.head?_cons, List.tail_cons, Option.bind_some]
  cases hexVal c <;> simp

theorem got_hexEscape (s : Str) : got hexEscape s =
    match s with
    | a :: b :: c :: d :: r => (hex4 a b c d).map fun n => (([a, b, c, d], n), r)
    | _ => none := by
  split
  · rename_i a b c d r
    have : got hexEscape (a :: b :: c :: d :: r) = got hexDigits (a :: b :: c :: d :: r) := by
      have hl : ¬ (a :: b :: c :: d :: r).length < 4 := by simp only [List.length_cons]; omega
      unfold got hexEscape
      simp only [hl, if_false]
    rw [this]
    unfold hexDigits hex4
    simp only [got_bind, got_hexDigit]
    cases hexVal a with
    | none => rfl
    | some a' =>
      simp only [Option.map_some, Option.bind_some, got_hexDigit, Option.bind_eq_bind]
      cases hexVal b with
      | none => rfl
      | some b' =>
        simp only [Option.map_some, Option.bind_some, got_hexDigit]
        cases hexVal c with
        | none => rfl
        | some c' =>
          simp only [Option.map_some, Option.bind_some, got_hexDigit]
          cases hexVal d with
          | none => rfl
          | some d' => rfl
  · rename_i h
    have hl : s.length < 4 := by
      match s, h with
      | [], _ => simp
      | [_], _ => simp
      | [_, _], _ => simp
      | [_, _, _], _ => simp
      | a :: b :: c :: d :: r, h => exact absurd rfl (h a b c d r)
    unfold got hexEscape
    simp [hl]

theorem hexEscape_sound {s r : Str} {p : Str × Nat} (h : got hexEscape s = some (p, r)) :
    s = p.1 ++ r ∧ Hex4 p.2 p.1 := by
  rw [got_hexEscape] at h
  split at h
  · rename_i a b c d r'
    simp only [Option.map_eq_some_iff, Prod.mk.injEq] at h
    obtain ⟨n, hn, rfl, rfl⟩ := h
    exact ⟨rfl, hex4_iff.2 ⟨a, b, c, d, rfl, hn⟩⟩
  · cases h

theorem hexEscape_complete {h r : Str} {n : Nat} (hh : Hex4 n h) : got hexEscape (h ++ r) = some ((h, n), r) := by
  obtain ⟨a, b, c, d, rfl, hx⟩ := hex4_iff.1 hh
  rw [got_hexEscape]
  simp [hx]

theorem escape_sound {s e r : Str} (h : got escape s = some (e, r)) : s = e ++ r := by
  unfold escape at h
  cases s with
  | nil => simp at h
  | cons c s =>
    simp only [got_bind, got_next, List.head?_cons, List.tail_cons, Option.bind_some] at h
    split at h
    · cases ‹some c = none›
    · rename_i hc
      cases hc
      simp only [got_bind, Option.bind_eq_some_iff] at h
      obtain ⟨⟨⟨h4, n⟩, r1⟩, h1, h⟩ := h
      obtain ⟨rfl, -⟩ := hexEscape_sound h1
      simp only at h
      split at h
      · simp at h
      · split at h
        · cases r1 with
          | nil => simp at h
          | cons a r1 =>
            simp only [got_bind, got_next, List.head?_cons, List.tail_cons, Option.bind_some] at h
            split at h
            · simp at h
            · rename_i ha
              cases ha
              cases r1 with
              | nil => simp at h
              | cons b r1 =>
                simp only [got_bind, got_next, List.head?_cons, List.tail_cons, Option.bind_some] at h
                split at h
                · simp at h
                · rename_i hb
                  cases hb
                  simp only [got_bind, Option.bind_eq_some_iff] at h
                  obtain ⟨⟨⟨l4, m⟩, r2⟩, h2, h⟩ := h
                  obtain ⟨rfl, -⟩ := hexEscape_sound h2
                  simp only at h
                  split at h
                  · simp at h
                  · simp only [got_pure, Option.some.injEq, Prod.mk.injEq] at h
                    obtain ⟨rfl, rfl⟩ := h
                    simp
                · simp at h
            · simp at h
        · simp only [got_pure, Option.some.injEq, Prod.mk.injEq] at h
          obtain ⟨rfl, rfl⟩ := h
          simp
    · split at h
      · simp only [got_pure, Option.some.injEq, Prod.mk.injEq] at h
        obtain ⟨rfl, rfl⟩ := h
        rename_i hc _
        rw [Option.some.inj hc]
        rfl
      · simp at h

theorem scan_sound (n : Nat) : ∀ {s t r : Str}, got (scan n) s = some (t, r) → s = t ++ r ∧ ∃ u, t = u ++ ['"'] := by
  induction n with
  | zero => intro s t r h; simp [scan] at h
  | succ n ih =>
    intro s t r h
    rw [scan] at h
    cases s with
    | nil => simp at h
    | cons c s =>
      simp only [got_bind, got_next, List.head?_cons, List.tail_cons, Option.bind_some] at h
      split at h
      · simp only [got_pure, Option.some.injEq, Prod.mk.injEq] at h
        obtain ⟨rfl, rfl⟩ := h
        exact ⟨by simp_all, [], rfl⟩
      split at h
      · simp only [got_bind, Option.bind_eq_some_iff, got_pure, Option.some.injEq, Prod.mk.injEq] at h
        obtain ⟨⟨e, r1⟩, h1, ⟨t1, r2⟩, h2, rfl, rfl⟩ := h
        obtain rfl := escape_sound h1
        obtain ⟨h3, u, rfl⟩ := ih h2
        simp only at h3
        refine ⟨by simp [*], '\\' :: (e ++ u), by simp⟩
      split at h
      · simp at h
      · simp only [got_bind, Option.bind_eq_some_iff, got_pure, Option.some.injEq, Prod.mk.injEq] at h
        obtain ⟨⟨t1, r2⟩, h2, rfl, rfl⟩ := h
        obtain ⟨h3, u, rfl⟩ := ih h2
        refine ⟨by simp [h3], c :: u, by simp⟩

theorem escape_simple {e c : Char} (h : (e, c) ∈ escapes) (r : Str) : got escape (e :: r) = some ([e], r) := by
  have hs := mem_escapes.1 h
  have hu : e ≠ 'u' := by rintro rfl; cases hs
  unfold escape
  simp only [got_bind, got_next, List.head?_cons, List.tail_cons, Option.bind_some]
  split
  · simp_all
  · simp_all

theorem escape_unicode {c : Char} {h : Str} (hh : Hex4 c.toNat h) (r : Str) :
    got escape ('u' :: (h ++ r)) = some ('u' :: h, r) := by
  unfold escape
  simp only [got_bind, got_next, List.head?_cons, List.tail_cons, Option.bind_some, hexEscape_complete hh]
  have hv := c.valid
  have h1 : ¬ (0xDC00 ≤ c.toNat ∧ c.toNat ≤ 0xDFFF) := by
    have : c.toNat = c.val.toNat := rfl
    simp only [UInt32.isValidChar, Nat.isValidChar] at hv
    omega
  have h2 : ¬ (0xD800 ≤ c.toNat ∧ c.toNat ≤ 0xDBFF) := by
    have : c.toNat = c.val.toNat := rfl
    simp only [UInt32.isValidChar, Nat.isValidChar] at hv
    omega
  simp [h1, h2]

theorem escape_pair {hi lo : Nat} {h l : Str} (hh : Hex4 hi h) (hl : Hex4 lo l) (h1 : 0xD800 ≤ hi) (h2 : hi ≤ 0xDBFF)
    (h3 : 0xDC00 ≤ lo) (h4 : lo ≤ 0xDFFF) (r : Str) :
    got escape ('u' :: (h ++ '\\' :: 'u' :: (l ++ r))) = some ('u' :: (h ++ '\\' :: 'u' :: l), r) := by
  unfold escape
  simp only [got_bind, got_next, List.head?_cons, List.tail_cons, Option.bind_some, hexEscape_complete hh]
  have e1 : ¬ (0xDC00 ≤ hi ∧ hi ≤ 0xDFFF) := by omega
  have e2 : 0xD800 ≤ hi ∧ hi ≤ 0xDBFF := ⟨h1, h2⟩
  have e3 : ¬ (lo < 0xDC00 ∨ 0xDFFF < lo) := by omega
  simp only [e1, e2, if_false, and_self, if_true, got_bind, got_next, List.head?_cons, List.tail_cons, Option.bind_some,
    hexEscape_complete hl, e3, got_pure]

theorem scan_high : ∀ (s : Str) (n : Nat) (t x r : Str), (∀ c ∈ s, 128 ≤ c.toNat) → s.length ≤ n →
    got (scan (n - s.length)) t = some (x, r) → got (scan n) (s ++ t) = some (s ++ x, r) := by
  intro s
  induction s with
  | nil => intro n t x r _ _ h; simpa using h
  | cons c s ih =>
    intro n t x r hs hn h
    obtain ⟨m, rfl⟩ : ∃ m, n = m + 1 := ⟨n - 1, by simp only [List.length_cons] at hn; omega⟩
    have hc := hs c (by simp)
    have h1 : c ≠ '"' := by rintro rfl; revert hc; decide
    have h2 : c ≠ '\\' := by rintro rfl; revert hc; decide
    have h3 : ¬ c.toNat < 32 := by omega
    simp only [List.length_cons] at hn h
    have := ih m t x r (fun x hx => hs x (by simp [hx])) (by omega)
      (by rw [show m - s.length = m + 1 - (s.length + 1) by omega]; exact h)
    rw [scan]
    simp [h1, h2, h3, this]

theorem scan_complete {v u : Str} (h : CharsText v u) : ∀ (n : Nat) (r : Str), (wide u).length < n →
    got (scan n) (wide u ++ '"' :: r) = some (wide u ++ ['"'], r) := by
  induction h with
  | nil =>
    intro n r hn
    obtain ⟨m, rfl⟩ : ∃ m, n = m + 1 := ⟨n - 1, by omega⟩
    rw [scan]; simp [wide_nil]
  | unescaped c v t h1 h2 h3 _ ih =>
    intro n r hn
    by_cases hc : c.toNat < 128
    · rw [wide_ascii hc] at hn ⊢
      simp only [List.length_cons] at hn
      obtain ⟨m, rfl⟩ : ∃ m, n = m + 1 := ⟨n - 1, by omega⟩
      have h4 : ¬ c.toNat < 32 := by omega
      rw [scan]
      simp [h2, h3, h4, ih m r (by omega)]
    · rw [wide_cons] at hn ⊢
      rw [List.length_append] at hn
      rw [List.append_assoc, List.append_assoc]
      exact scan_high _ _ _ _ _ (wide_nonascii (by omega)) (by omega) (ih _ _ (by omega))
  | escape e c v t he _ ih =>
    intro n r hn
    rw [wide_ascii (by decide), wide_ascii (escape_ascii he)] at hn ⊢
    simp only [List.length_cons] at hn
    obtain ⟨m, rfl⟩ : ∃ m, n = m + 1 := ⟨n - 1, by omega⟩
    rw [scan]
    simp [escape_simple he, ih m r (by omega)]
  | unicode c h v t hh _ ih =>
    intro n r hn
    rw [wide_ascii (by decide), wide_ascii (by decide), wide_append, wide_eq_self (hex4_ascii hh)] at hn ⊢
    simp only [List.length_cons, List.length_append] at hn
    obtain ⟨m, rfl⟩ : ∃ m, n = m + 1 := ⟨n - 1, by omega⟩
    rw [scan]
    simp [escape_unicode hh, ih m r (by omega)]
  | pair c hi lo h l v t hh hl h1 h2 h3 h4 hc _ ih =>
    intro n r hn
    rw [wide_ascii (by decide), wide_ascii (by decide), wide_append, wide_eq_self (hex4_ascii hh),
      wide_ascii (by decide), wide_ascii (by decide), wide_append, wide_eq_self (hex4_ascii hl)] at hn ⊢
    simp only [List.length_cons, List.length_append] at hn
    obtain ⟨m, rfl⟩ : ∃ m, n = m + 1 := ⟨n - 1, by omega⟩
    rw [scan]
    simp [escape_pair hh hl h1 h2 h3 h4, ih m r (by omega)]

theorem got_string {s v r : Str} (hn : Narrow s) :
    got string s = some (v, r) ↔ ∃ u, CharsText v u ∧ s = wide u ++ '"' :: r := by
  unfold string
  simp only [got_bind, got_fueled, Option.bind_eq_some_iff]
  constructor
  · rintro ⟨⟨t, r'⟩, h1, h2⟩
    obtain ⟨rfl, u, rfl⟩ := scan_sound _ h1
    simp only at h2
    split at h2
    · rename_i v' hv
      simp only [got_pure, Option.some.injEq, Prod.mk.injEq] at h2
      obtain ⟨rfl, rfl⟩ := h2
      obtain ⟨u', hu, rfl⟩ := (rawName_iff hn.of_append.1).1 hv
      exact ⟨u', hu, by simp⟩
    · simp at h2
  · rintro ⟨u, hu, rfl⟩
    refine ⟨(wide u ++ ['"'], r), scan_complete hu _ _ (by simp; omega), ?_⟩
    have : rawName (wide u ++ ['"']) = some v :=
      (rawName_iff (Narrow.append (narrow_wide u) (by intro c hc; simp at hc; subst hc; decide))).2 ⟨u, hu, rfl⟩
    simp only [this, got_pure]

/-! ### Skipping -/

theorem skipEscape_sound {s r : Str} (h : got skipEscape s = some ((), r)) :
    (∃ e c, (e, c) ∈ escapes ∧ s = e :: r) ∨ ∃ n h4, Hex4 n h4 ∧ s = 'u' :: (h4 ++ r) := by
  unfold skipEscape at h
  cases s with
  | nil => simp at h
  | cons c s =>
    simp only [got_bind, got_next, List.head?_cons, List.tail_cons, Option.bind_some] at h
    split at h
    · cases ‹some c = none›
    · rename_i hc
      rw [Option.some.inj hc]
      simp only [got_bind, Option.bind_eq_some_iff, got_pure, Option.some.injEq, Prod.mk.injEq, true_and] at h
      obtain ⟨⟨⟨h4, n⟩, r1⟩, h1, rfl⟩ := h
      obtain ⟨rfl, hh⟩ := hexEscape_sound h1
      exact .inr ⟨n, h4, hh, rfl⟩
    · rename_i e _ hc
      rw [Option.some.inj hc]
      split at h
      · rename_i he
        obtain ⟨x, hx⟩ := Option.isSome_iff_exists.1 he
        simp only [got_pure, Option.some.injEq, Prod.mk.injEq, true_and] at h
        subst h
        exact .inl ⟨e, x, mem_escapes.2 hx, rfl⟩
      · simp at h

theorem skipEscape_simple {e c : Char} (h : (e, c) ∈ escapes) (r : Str) : got skipEscape (e :: r) = some ((), r) := by
  have hs := mem_escapes.1 h
  have hu : e ≠ 'u' := by rintro rfl; cases hs
  unfold skipEscape
  simp only [got_bind, got_next, List.head?_cons, List.tail_cons, Option.bind_some]
  split
  · simp_all
  · simp_all

theorem skipEscape_unicode {n : Nat} {h : Str} (hh : Hex4 n h) (r : Str) :
    got skipEscape ('u' :: (h ++ r)) = some ((), r) := by
  unfold skipEscape
  simp [hexEscape_complete hh]

theorem skipChars_sound (n : Nat) : ∀ {s r : Str}, got (skipChars n) s = some ((), r) →
    ∃ t, SkippedChars t ∧ s = t ++ '"' :: r := by
  induction n with
  | zero => intro s r h; simp [skipChars] at h
  | succ n ih =>
    intro s r h
    rw [skipChars] at h
    cases s with
    | nil => simp at h
    | cons c s =>
      simp only [got_bind, got_peek, List.head?_cons, Option.bind_some] at h
      split at h
      · simp only [got_eat, List.tail_cons, Option.some.injEq, Prod.mk.injEq, true_and] at h
        subst_vars
        exact ⟨[], .nil, rfl⟩
      split at h
      · simp only [got_bind, Option.bind_eq_some_iff, got_eat, List.tail_cons, Option.some.injEq] at h
        obtain ⟨_, rfl, ⟨_, r1⟩, h1, h2⟩ := h
        obtain ⟨t, ht, rfl⟩ := ih h2
        subst_vars
        rcases skipEscape_sound h1 with ⟨e, x, he, h3⟩ | ⟨m, h4, hh, h3⟩
        · simp only at h3
          exact ⟨_, .escape e x t he ht, by rw [h3]; rfl⟩
        · simp only at h3
          exact ⟨_, .unicode m h4 t hh ht, by rw [h3]; simp⟩
      split at h
      · simp at h
      · simp only [got_bind, Option.bind_eq_some_iff, got_eat, List.tail_cons, Option.some.injEq] at h
        obtain ⟨_, rfl, h2⟩ := h
        obtain ⟨t, ht, h3⟩ := ih h2
        simp only at h3
        exact ⟨_, .plain c t (by omega) (by assumption) (by assumption) ht, by rw [h3]; rfl⟩

theorem skipChars_complete {t : Str} (h : SkippedChars t) : ∀ (n : Nat) (r : Str), t.length < n →
    got (skipChars n) (t ++ '"' :: r) = some ((), r) := by
  induction h with
  | nil =>
    intro n r hn
    obtain ⟨m, rfl⟩ : ∃ m, n = m + 1 := ⟨n - 1, by omega⟩
    rw [skipChars]; simp
  | plain c t h1 h2 h3 _ ih =>
    intro n r hn
    simp only [List.length_cons] at hn
    obtain ⟨m, rfl⟩ : ∃ m, n = m + 1 := ⟨n - 1, by omega⟩
    have h4 : ¬ c.toNat < 32 := by omega
    rw [skipChars]
    simp [h2, h3, h4, ih m r (by omega)]
  | escape e c t he _ ih =>
    intro n r hn
    simp only [List.length_cons] at hn
    obtain ⟨m, rfl⟩ : ∃ m, n = m + 1 := ⟨n - 1, by omega⟩
    rw [skipChars]
    simp [skipEscape_simple he, ih m r (by omega)]
  | unicode k h t hh _ ih =>
    intro n r hn
    simp only [List.length_cons, List.length_append] at hn
    obtain ⟨m, rfl⟩ : ∃ m, n = m + 1 := ⟨n - 1, by omega⟩
    rw [skipChars]
    simp [skipEscape_unicode hh, ih m r (by omega)]

/-- What comes after whitespace. -/
theorem skipWs_cases (s : Str) : (∃ w, Ws w ∧ s = w ∧ skipWs s = []) ∨
    ∃ w c r, Ws w ∧ s = w ++ c :: r ∧ skipWs s = c :: r := by
  obtain ⟨w, hw, hs, -⟩ := skipWs_sound s
  cases h : skipWs s with
  | nil => rw [h] at hs; exact .inl ⟨w, hw, by simpa using hs, rfl⟩
  | cons c r => rw [h] at hs; exact .inr ⟨w, c, r, hw, hs, rfl⟩

theorem ident_sound {w s r : Str} (h : got (ident w) s = some ((), r)) : s = w ++ r := by
  rw [got_ident] at h
  split at h
  · rename_i hp
    obtain ⟨t, rfl⟩ := hp
    simp only [List.drop_left, Option.some.injEq, Prod.mk.injEq, true_and] at h
    rw [h]
  · cases h

theorem ident_complete (w r : Str) : got (ident w) (w ++ r) = some ((), r) := by
  rw [got_ident, if_pos ⟨r, rfl⟩, List.drop_left]

theorem skipKey_sound {s r : Str} (h : got skipKey s = some ((), r)) :
    ∃ w n w', Ws w ∧ SkippedString n ∧ Ws w' ∧ s = w ++ (n ++ (w' ++ ':' :: r)) := by
  unfold skipKey at h
  rcases skipWs_cases s with ⟨w, hw, -, hsk⟩ | ⟨w, c, r0, hw, rfl, hsk⟩
  · simp [hsk] at h
  simp only [got_bind, got_ws, Option.bind_some, hsk, List.head?_cons] at h
  split at h
  · subst_vars
    simp only [got_bind, got_eat, Option.bind_some, List.tail_cons, got_fueled, Option.bind_eq_some_iff,
      got_ws] at h
    obtain ⟨⟨_, r1⟩, h1, h⟩ := h
    obtain ⟨u, hu, rfl⟩ := skipChars_sound _ h1
    rcases skipWs_cases r1 with ⟨w1, hw1, -, hsk1⟩ | ⟨w1, x, r2, hw1, rfl, hsk1⟩
    · simp [hsk1] at h
    simp only [hsk1, List.head?_cons] at h
    split at h
    · subst_vars
      simp only [got_eat, List.tail_cons, Option.some.injEq, Prod.mk.injEq, true_and] at h
      subst h
      exact ⟨w, _, w1, hw, ⟨u, hu, rfl⟩, hw1, by simp⟩
    · simp at h
  · simp at h

theorem skipKey_complete {w n w' : Str} (hw : Ws w) (hn : SkippedString n) (hw' : Ws w') (r : Str) :
    got skipKey (w ++ (n ++ (w' ++ ':' :: r))) = some ((), r) := by
  obtain ⟨k, hk, rfl⟩ := hn
  unfold skipKey
  have h0 : skipWs (w ++ ('"' :: (k ++ ['"']) ++ (w' ++ ':' :: r))) = '"' :: (k ++ '"' :: (w' ++ ':' :: r)) := by
    rw [skipWs_append hw, List.cons_append, skipWs_cons (by decide)]
    simp
  have h3 : skipWs (w' ++ ':' :: r) = ':' :: r := by
    rw [skipWs_append hw']; exact skipWs_cons (by decide)
  simp only [got_bind, got_ws, h0, Option.bind_some, List.head?_cons, if_true, got_eat, List.tail_cons,
    got_fueled]
  rw [skipChars_complete hk _ _ (by simp only [List.length_append]; omega)]
  simp only [Option.bind_some, h3, List.head?_cons, if_true, got_eat, List.tail_cons]

/-- What is left of a skipped array. -/
def RestOfArray (first : Bool) (t : Str) : Prop :=
  if first then (∃ w, Ws w ∧ t = w ++ [']']) ∨
    ∃ w s u, Ws w ∧ SkippedValue s ∧ SkippedElements u ∧ t = w ++ (s ++ u)
  else SkippedElements t

/-- What is left of a skipped object. -/
def RestOfObject (first : Bool) (t : Str) : Prop :=
  if first then (∃ w, Ws w ∧ t = w ++ ['}']) ∨
    ∃ w s u, Ws w ∧ SkippedMember s ∧ SkippedMembers u ∧ t = w ++ (s ++ u)
  else SkippedMembers t

theorem Ws.nil : Ws [] := by intro c hc; cases hc

theorem Ws.append {v w : Str} (hv : Ws v) (hw : Ws w) : Ws (v ++ w) := by
  intro c hc
  rcases List.mem_append.1 hc with h | h
  · exact hv c h
  · exact hw c h

theorem skip_sound (f : Nat) :
    (∀ s r, got (skip f) s = some ((), r) → ∃ w t, Ws w ∧ SkippedValue t ∧ s = w ++ t ++ r) ∧
    (∀ s r b, got (skipItems f b) s = some ((), r) → ∃ t, RestOfArray b t ∧ s = t ++ r) ∧
    (∀ s r b, got (skipPairs f b) s = some ((), r) → ∃ t, RestOfObject b t ∧ s = t ++ r) := by
  induction f with
  | zero => refine ⟨?_, ?_, ?_⟩ <;> intro s r <;> simp [skip, skipItems, skipPairs]
  | succ f ih =>
    refine ⟨?_, ?_, ?_⟩
    · intro s r h
      rw [skip] at h
      rcases skipWs_cases s with ⟨w, hw, -, hsk⟩ | ⟨w, c, r0, hw, rfl, hsk⟩
      · simp [hsk] at h
      simp only [got_bind, got_ws, Option.bind_some, hsk, List.head?_cons] at h
      split at h
      · subst_vars
        simp only [got_bind, got_eat, Option.bind_some, List.tail_cons, got_fueled] at h
        obtain ⟨t, ht, rfl⟩ := skipChars_sound _ h
        exact ⟨w, _, hw, .string _ ⟨t, ht, rfl⟩, by simp⟩
      split at h
      · subst_vars
        simp only [got_bind, got_eat, Option.bind_some, List.tail_cons] at h
        obtain ⟨t, ht, rfl⟩ := ih.2.1 _ _ _ h
        rcases ht with ⟨w1, hw1, rfl⟩ | ⟨w1, s1, u1, hw1, hs1, hu1, rfl⟩
        · exact ⟨w, _, hw, .emptyArray _ hw1, by simp⟩
        · exact ⟨w, _, hw, .array _ _ _ hw1 hs1 hu1, by simp⟩
      split at h
      · subst_vars
        simp only [got_bind, got_eat, Option.bind_some, List.tail_cons] at h
        obtain ⟨t, ht, rfl⟩ := ih.2.2 _ _ _ h
        rcases ht with ⟨w1, hw1, rfl⟩ | ⟨w1, s1, u1, hw1, hs1, hu1, rfl⟩
        · exact ⟨w, _, hw, .emptyObject _ hw1, by simp⟩
        · exact ⟨w, _, hw, .object _ _ _ hw1 hs1 hu1, by simp⟩
      split at h
      · subst_vars
        simp only [got_bind, got_eat, Option.bind_some, List.tail_cons, got_skipNumber (neg := true),
          Option.map_eq_some_iff] at h
        obtain ⟨⟨j, r'⟩, hp, h⟩ := h
        simp only [Prod.mk.injEq, true_and] at h
        subst h
        obtain ⟨t, ht, rfl⟩ := parseNumber_sound hp
        exact ⟨w, _, hw, .number _ _ ht, by simp⟩
      split at h
      · simp only [got_skipNumber (neg := false), Option.map_eq_some_iff] at h
        obtain ⟨⟨j, r'⟩, hp, h⟩ := h
        simp only [Prod.mk.injEq, true_and] at h
        subst h
        obtain ⟨t, ht, e⟩ := parseNumber_sound hp
        exact ⟨w, _, hw, .number _ _ ht, by rw [e]; simp⟩
      split at h
      · subst_vars
        simp only [got_bind, got_eat, Option.bind_some, List.tail_cons] at h
        obtain rfl := ident_sound h
        exact ⟨w, _, hw, .null, by simp⟩
      split at h
      · subst_vars
        simp only [got_bind, got_eat, Option.bind_some, List.tail_cons] at h
        obtain rfl := ident_sound h
        exact ⟨w, _, hw, .true, by simp⟩
      split at h
      · subst_vars
        simp only [got_bind, got_eat, Option.bind_some, List.tail_cons] at h
        obtain rfl := ident_sound h
        exact ⟨w, _, hw, .false, by simp⟩
      · simp at h
    · intro s r b h
      rw [skipItems] at h
      rcases skipWs_cases s with ⟨w, hw, -, hsk⟩ | ⟨w, c, r0, hw, rfl, hsk⟩
      · simp [hsk] at h
      simp only [got_bind, got_ws, Option.bind_some, hsk, List.head?_cons] at h
      split at h
      · subst_vars
        simp only [got_eat, List.tail_cons, Option.some.injEq, Prod.mk.injEq, true_and] at h
        subst h
        refine ⟨w ++ [']'], ?_, by simp⟩
        unfold RestOfArray
        split
        · exact .inl ⟨w, hw, rfl⟩
        · exact .close _ hw
      split at h
      · rename_i hb
        subst hb
        simp only [got_bind, Option.bind_eq_some_iff] at h
        obtain ⟨⟨_, r1⟩, h1, h2⟩ := h
        obtain ⟨w1, t1, hw1, ht1, e1⟩ := ih.1 _ _ h1
        obtain ⟨t2, ht2, rfl⟩ := ih.2.1 _ _ _ h2
        exact ⟨w ++ w1 ++ (t1 ++ t2), .inr ⟨_, _, _, Ws.append hw hw1, ht1, ht2, rfl⟩, by rw [e1]; simp⟩
      rename_i hb
      simp only [Bool.not_eq_true] at hb
      subst hb
      split at h
      · subst_vars
        simp only [got_bind, got_eat, Option.bind_some, List.tail_cons, Option.bind_eq_some_iff] at h
        obtain ⟨⟨_, r1⟩, h1, h2⟩ := h
        obtain ⟨w1, t1, hw1, ht1, rfl⟩ := ih.1 _ _ h1
        obtain ⟨t2, ht2, rfl⟩ := ih.2.1 _ _ _ h2
        exact ⟨w ++ ',' :: (w1 ++ t1 ++ t2), .more _ _ _ _ hw hw1 ht1 ht2, by simp⟩
      · simp at h
    · intro s r b h
      rw [skipPairs] at h
      rcases skipWs_cases s with ⟨w, hw, -, hsk⟩ | ⟨w, c, r0, hw, rfl, hsk⟩
      · simp [hsk] at h
      simp only [got_bind, got_ws, Option.bind_some, hsk, List.head?_cons] at h
      split at h
      · subst_vars
        simp only [got_eat, List.tail_cons, Option.some.injEq, Prod.mk.injEq, true_and] at h
        subst h
        refine ⟨w ++ ['}'], ?_, by simp⟩
        unfold RestOfObject
        split
        · exact .inl ⟨w, hw, rfl⟩
        · exact .close _ hw
      split at h
      · rename_i hb
        cases b with
        | true =>
          simp only [if_true, got_bind, Option.bind_eq_some_iff] at h
          obtain ⟨⟨_, r1⟩, h1, ⟨_, r2⟩, h2, h3⟩ := h
          obtain ⟨w1, n, w2, hw1, hn, hw2, e1⟩ := skipKey_sound h1
          obtain ⟨w3, t3, hw3, ht3, e2⟩ := ih.1 _ _ h2
          obtain ⟨t4, ht4, rfl⟩ := ih.2.2 _ _ _ h3
          simp only at e2
          subst e2
          refine ⟨w ++ w1 ++ (n ++ w2 ++ ':' :: (w3 ++ t3) ++ t4),
            .inr ⟨_, _, _, Ws.append hw hw1, .mk _ _ _ _ hn hw2 hw3 ht3, ht4, rfl⟩, ?_⟩
          rw [e1]; simp
        | false =>
          simp only [Bool.false_eq_true, false_or] at hb
          subst hb
          simp only [Bool.false_eq_true, if_false, got_bind, got_eat, List.tail_cons, Option.bind_some,
            Option.bind_eq_some_iff] at h
          obtain ⟨⟨_, r1⟩, h1, ⟨_, r2⟩, h2, h3⟩ := h
          obtain ⟨w1, n, w2, hw1, hn, hw2, e1⟩ := skipKey_sound h1
          obtain ⟨w3, t3, hw3, ht3, e2⟩ := ih.1 _ _ h2
          obtain ⟨t4, ht4, rfl⟩ := ih.2.2 _ _ _ h3
          simp only at e2
          subst e2
          refine ⟨w ++ ',' :: (w1 ++ (n ++ w2 ++ ':' :: (w3 ++ t3)) ++ t4),
            .more _ _ _ _ hw hw1 (.mk _ _ _ _ hn hw2 hw3 ht3) ht4, ?_⟩
          rw [e1]; simp
      · simp at h

theorem skip_complete (f : Nat) :
    (∀ w t r, Ws w → SkippedValue t → 2 * t.length ≤ f → Ends r → got (skip f) (w ++ t ++ r) = some ((), r)) ∧
    (∀ t r b, RestOfArray b t → 2 * t.length + 1 ≤ f → got (skipItems f b) (t ++ r) = some ((), r)) ∧
    (∀ t r b, RestOfObject b t → 2 * t.length + 1 ≤ f → got (skipPairs f b) (t ++ r) = some ((), r)) := by
  induction f with
  | zero =>
    refine ⟨?_, ?_, ?_⟩
    · intro w t r _ h hl
      obtain ⟨c, t', rfl, -⟩ := skippedValue_cons h
      simp at hl
    · intro t r b h hl; omega
    · intro t r b h hl; omega
  | succ f ih =>
    refine ⟨?_, ?_, ?_⟩
    · intro w t r hw h hl hr
      rw [List.append_assoc, skip]
      simp only [got_bind, got_ws, Option.bind_some, skipWs_append hw]
      have harr : ∀ t, RestOfArray true t → 2 * (t.length + 1) ≤ f + 1 →
          got (skipItems f true) (t ++ r) = some ((), r) := fun t h hl => ih.2.1 t r true h (by omega)
      have hobj : ∀ t, RestOfObject true t → 2 * (t.length + 1) ≤ f + 1 →
          got (skipPairs f true) (t ++ r) = some ((), r) := fun t h hl => ih.2.2 t r true h (by omega)
      cases h with
      | null => simp [skipWs, isWs, isDigit]; exact ident_complete (str! "ull") r
      | true => simp [skipWs, isWs, isDigit]; exact ident_complete (str! "rue") r
      | false => simp [skipWs, isWs, isDigit]; exact ident_complete (str! "alse") r
      | number _ _ h =>
        rcases number_complete h hr with ⟨t', rfl, hp⟩ | ⟨c, t', rfl, hdig, hp⟩
        · rw [List.cons_append, skipWs_cons (by decide)]
          simp [got_skipNumber (neg := true), hp]
        · obtain ⟨h1, h2, h3, h4, -, -, h5, -⟩ := isDigit_facts hdig
          rw [List.cons_append] at hp ⊢
          rw [skipWs_cons h1]
          simp [h2, h3, h4, h5, hdig, got_skipNumber (neg := false), hp]
      | string s h =>
        obtain ⟨t, ht, rfl⟩ := h
        rw [List.cons_append, List.append_assoc, skipWs_cons (by decide)]
        simp [skipChars_complete ht _ r (show t.length < 2 * (t.length + (r.length + 1)) + 2 by omega)]
      | emptyArray w' hw' =>
        have := harr _ (.inl ⟨w', hw', rfl⟩) (by simpa using hl)
        rw [List.cons_append, skipWs_cons (by decide)]
        simpa using this
      | array w' s u hw' hx hxs =>
        have := harr _ (.inr ⟨w', s, u, hw', hx, hxs, rfl⟩) (by simp at hl ⊢; omega)
        rw [List.cons_append, skipWs_cons (by decide)]
        simpa using this
      | emptyObject w' hw' =>
        have := hobj _ (.inl ⟨w', hw', rfl⟩) (by simpa using hl)
        rw [List.cons_append, skipWs_cons (by decide)]
        simpa using this
      | object w' s u hw' hx hxs =>
        have := hobj _ (.inr ⟨w', s, u, hw', hx, hxs, rfl⟩) (by simp at hl ⊢; omega)
        rw [List.cons_append, skipWs_cons (by decide)]
        simpa using this
    · intro t r b h hl
      rw [skipItems]
      simp only [got_bind, got_ws, Option.bind_some]
      have hclose : ∀ w, Ws w → skipWs (w ++ [']'] ++ r) = ']' :: r := by
        intro w hw
        rw [List.append_assoc, skipWs_append hw]; exact skipWs_cons (by decide)
      cases b with
      | true =>
        rcases h with ⟨w, hw, rfl⟩ | ⟨w, s, u, hw, hx, hxs, rfl⟩
        · rw [hclose w hw]; simp
        · simp only [List.length_append] at hl
          have h1 := ih.1 [] s (u ++ r) Ws.nil hx (by omega) (skippedElements_ends hxs r)
          obtain ⟨c, t', rfl, c1, c2, -⟩ := skippedValue_cons hx
          simp only [List.length_cons] at hl
          have h2 := ih.2.1 u r false hxs (by omega)
          have hs : skipWs (w ++ (c :: t' ++ u) ++ r) = c :: (t' ++ (u ++ r)) := by
            rw [List.append_assoc, List.append_assoc, skipWs_append hw]; exact skipWs_cons c1
          simp only [List.nil_append, List.cons_append] at h1
          rw [hs]
          simp [c2, h1, h2]
      | false =>
        cases (show SkippedElements t from h) with
        | close w hw => rw [hclose w hw]; simp
        | more w w' s u hw hw' hx hxs =>
          simp only [List.length_append, List.length_cons] at hl
          have h1 := ih.1 w' s (u ++ r) hw' hx (by omega) (skippedElements_ends hxs r)
          have h2 := ih.2.1 u r false hxs (by omega)
          have hs : skipWs (w ++ ',' :: (w' ++ s ++ u) ++ r) = ',' :: (w' ++ s ++ (u ++ r)) := by
            rw [List.append_assoc, skipWs_append hw, List.cons_append, skipWs_cons (by decide)]; simp
          rw [hs]
          simp only [got_bind, Option.bind_some, List.head?_cons, Char.reduceEq, if_false,
            Bool.false_eq_true, if_true, got_eat, List.tail_cons, h1, h2]
    · intro t r b h hl
      rw [skipPairs]
      simp only [got_bind, got_ws, Option.bind_some]
      have hclose : ∀ w, Ws w → skipWs (w ++ ['}'] ++ r) = '}' :: r := by
        intro w hw
        rw [List.append_assoc, skipWs_append hw]; exact skipWs_cons (by decide)
      have hmem : ∀ w s u, Ws w → SkippedMember s → SkippedMembers u → 2 * (s.length + u.length) ≤ f →
          got (do skipKey; skip f; skipPairs f false : Reader Unit) (w ++ (s ++ (u ++ r))) = some ((), r) := by
        intro w s u hw hs hu hl
        cases hs with
        | mk n w1 w2 v hn hw1 hw2 hv =>
          simp only [List.length_cons, List.length_append] at hl
          have h1 := ih.1 w2 v (u ++ r) hw2 hv (by omega) (skippedMembers_ends hu r)
          have h2 := ih.2.2 u r false hu (by omega)
          have h0 := skipKey_complete hw hn hw1 (w2 ++ v ++ (u ++ r))
          have e : w ++ (n ++ w1 ++ ':' :: (w2 ++ v) ++ (u ++ r)) = w ++ (n ++ (w1 ++ ':' :: (w2 ++ v ++ (u ++ r)))) := by
            simp
          rw [e]
          simp only [got_bind, h0, Option.bind_some, h1, h2]
      cases b with
      | true =>
        rcases h with ⟨w, hw, rfl⟩ | ⟨w, s, u, hw, hx, hxs, rfl⟩
        · rw [hclose w hw]; simp
        · simp only [List.length_append] at hl
          have h1 := hmem [] s u Ws.nil hx hxs (by omega)
          obtain ⟨t', rfl⟩ := skippedMember_cons hx
          have hs : skipWs (w ++ ('"' :: t' ++ u) ++ r) = '"' :: (t' ++ (u ++ r)) := by
            rw [List.append_assoc, List.append_assoc, skipWs_append hw]; exact skipWs_cons (by decide)
          rw [hs]
          simp only [List.nil_append, List.cons_append] at h1
          simp only [List.head?_cons, Char.reduceEq, if_false, true_or, if_true, got_bind] at h1 ⊢
          exact h1
      | false =>
        cases (show SkippedMembers t from h) with
        | close w hw => rw [hclose w hw]; simp
        | more w w' s u hw hw' hx hxs =>
          simp only [List.length_append, List.length_cons] at hl
          have h1 := hmem w' s u hw' hx hxs (by omega)
          have hs : skipWs (w ++ ',' :: (w' ++ s ++ u) ++ r) = ',' :: (w' ++ (s ++ (u ++ r))) := by
            rw [List.append_assoc, skipWs_append hw, List.cons_append, skipWs_cons (by decide)]; simp
          rw [hs]
          simp only [List.head?_cons, Char.reduceEq, if_false, Bool.false_eq_true, false_or, if_true, got_bind,
            got_eat, List.tail_cons, Option.bind_some] at h1 ⊢
          exact h1

end Reading
end Oid4vci
