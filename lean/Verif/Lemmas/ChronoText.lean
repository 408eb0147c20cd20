import Verif.Lemmas.Chrono
import Verif.Lemmas.Json

namespace Oid4vci.Chrono
open Spec

/-! ### Digits -/

theorem digit_spec (n : Nat) : Json.isDigit (digit n) = true ∧ (digit n).toNat - 48 = n % 10 := by
  obtain ⟨h1, h2, -⟩ := Json.digit_facts ⟨n % 10, Nat.mod_lt _ (by omega)⟩
  exact ⟨h1, h2⟩

/-- The value after reading `ds`. -/
def val (acc : Nat) (ds : Str) : Nat := ds.foldl (fun a c => a * 10 + (c.toNat - 48)) acc

theorem le_val (acc : Nat) (ds : Str) : acc ≤ val acc ds := by
  induction ds generalizing acc with
  | nil => exact Nat.le_refl _
  | cons c ds ih =>
    have := ih (acc * 10 + (c.toNat - 48))
    simp only [val, List.foldl_cons] at this ⊢
    omega

theorem fixed_spec (w n : Nat) : (∀ c ∈ fixed w n, Json.isDigit c = true) ∧
    (fixed w n).length = w ∧ ∀ acc, val acc (fixed w n) = acc * 10 ^ w + n % 10 ^ w := by
  induction w generalizing n with
  | zero => exact ⟨by simp [fixed], rfl, fun acc => by simp [fixed, val]; omega⟩
  | succ w ih =>
    obtain ⟨i1, i2, i3⟩ := ih (n / 10)
    obtain ⟨d1, d2⟩ := digit_spec n
    refine ⟨?_, by simp [fixed, i2], ?_⟩
    · intro c hc
      simp only [fixed, List.mem_append, List.mem_singleton] at hc
      rcases hc with hc | rfl
      · exact i1 c hc
      · exact d1
    · intro acc
      have := i3 acc
      simp only [val, fixed, List.foldl_append, List.foldl_cons, List.foldl_nil] at this ⊢
      rw [this, d2, Nat.add_mul, Nat.pow_succ, Nat.mul_assoc, Nat.add_assoc]
      congr 1
      have := Nat.mod_mul (x := n) (a := 10) (b := 10 ^ w)
      rw [Nat.mul_comm (10 ^ w) 10, this]
      omega

/-- The rest does not begin with a digit. -/
def NoDigit (s : Str) : Prop := ∀ c ∈ s.head?, Json.isDigit c = false

theorem digits_stop (max : Option Nat) (rest : Str) (acc : Nat) (h : NoDigit rest) :
    digits max rest acc = some (acc, rest) := by
  cases rest with
  | nil => cases max with
    | none => rfl
    | some k => cases k <;> rfl
  | cons c r =>
    have : Json.isDigit c = false := h c rfl
    cases max with
    | none => simp [digits, this]
    | some k => cases k <;> simp [digits, this]

theorem digits_some (ds rest : Str) (k acc : Nat) (h : ∀ c ∈ ds, Json.isDigit c = true)
    (hv : val acc ds < 2 ^ 63) :
    digits (some (ds.length + k)) (ds ++ rest) acc = digits (some k) rest (val acc ds) := by
  induction ds generalizing acc with
  | nil => simp [val]
  | cons c ds ih =>
    have hc := h c (by simp)
    have hle := le_val (acc * 10 + (c.toNat - 48)) ds
    have hv' : val (acc * 10 + (c.toNat - 48)) ds < 2 ^ 63 := hv
    have := ih (acc * 10 + (c.toNat - 48)) (fun c hc => h c (by simp [hc])) hv'
    rw [List.length_cons, show ds.length + 1 + k = ds.length + k + 1 by omega, List.cons_append,
      digits, if_pos hc]
    · simp only [Option.map_some, Nat.add_sub_cancel]
      rw [if_pos (by omega), this]; rfl
    · simp

theorem digits_none (ds rest : Str) (acc : Nat) (h : ∀ c ∈ ds, Json.isDigit c = true)
    (hv : val acc ds < 2 ^ 63) :
    digits none (ds ++ rest) acc = digits none rest (val acc ds) := by
  induction ds generalizing acc with
  | nil => simp [val]
  | cons c ds ih =>
    have hc := h c (by simp)
    have hle := le_val (acc * 10 + (c.toNat - 48)) ds
    have hv' : val (acc * 10 + (c.toNat - 48)) ds < 2 ^ 63 := hv
    have := ih (acc * 10 + (c.toNat - 48)) (fun c hc => h c (by simp [hc])) hv'
    rw [List.cons_append, digits, if_pos hc]
    · simp only [Option.map_none]
      rw [if_pos (by omega), this]; rfl
    · simp

theorem number_cons (max : Option Nat) (ds rest : Str) (hne : ds ≠ [])
    (h : ∀ c ∈ ds, Json.isDigit c = true) : number max (ds ++ rest) = digits max (ds ++ rest) 0 := by
  cases ds with
  | nil => exact absurd rfl hne
  | cons c ds => rw [List.cons_append, number, if_pos (h c (by simp))]

theorem fixed_ne (w n : Nat) (h : 0 < w) : fixed w n ≠ [] := by
  intro he
  have := (fixed_spec w n).2.1
  rw [he] at this
  simp at this
  omega

theorem number_fixed (w n : Nat) (rest : Str) (h0 : 0 < w) (h9 : w ≤ 9) (hn : n < 10 ^ w) :
    number (some w) (fixed w n ++ rest) = some (n, rest) := by
  obtain ⟨f1, f2, f3⟩ := fixed_spec w n
  have hv : val 0 (fixed w n) = n := by rw [f3, Nat.mod_eq_of_lt hn]; omega
  have hp : 10 ^ w ≤ 10 ^ 9 := Nat.pow_le_pow_right (by omega) h9
  have hd := digits_some (fixed w n) rest 0 0 f1 (by rw [hv]; omega)
  rw [number_cons _ _ _ (fixed_ne w n h0) f1]
  rw [f2, Nat.add_zero, hv] at hd
  rw [hd, digits]

theorem isDigit_notWs {c : Char} (h : Json.isDigit c = true) : isWhitespace c = false := by
  simp only [Json.isDigit, isWhitespace, Bool.and_eq_true, Bool.or_eq_false_iff,
    Bool.and_eq_false_iff, decide_eq_true_eq, decide_eq_false_iff_not, beq_eq_false_iff_ne] at *
  omega

theorem trimStart_cons {c : Char} {s : Str} (h : isWhitespace c = false) :
    trimStart (c :: s) = c :: s := by simp [trimStart, h]

theorem trimStart_digits (ds rest : Str) (hne : ds ≠ []) (h : ∀ c ∈ ds, Json.isDigit c = true) :
    trimStart (ds ++ rest) = ds ++ rest := by
  cases ds with
  | nil => exact absurd rfl hne
  | cons c ds => rw [List.cons_append]; exact trimStart_cons (isDigit_notWs (h c (by simp)))

theorem numeric2_fixed (n : Nat) (rest : Str) (hn : n < 100) :
    numeric2 (fixed 2 n ++ rest) = some (n, rest) := by
  rw [numeric2, trimStart_digits _ _ (fixed_ne 2 n (by omega)) (fixed_spec 2 n).1,
    number_fixed 2 n rest (by omega) (by omega) (by omega)]

theorem separator_cons (c : Char) (s : Str) (h : isWhitespace c = false) :
    separator c (c :: s) = some s := by
  rw [separator, trimStart_cons h]
  simp

theorem numericYear_show (y : Int) (rest : Str) (hy : y.natAbs < 2 ^ 63) (hr : NoDigit rest) :
    numericYear (showYear y ++ rest) = some (y, rest) := by
  have hsigned : ∀ n : Nat, n < 2 ^ 63 → number none
      ((if n < 10000 then fixed 4 n else Json.natDigits n) ++ rest) = some (n, rest) := by
    intro n hn
    have key : ∃ ds : Str, (if n < 10000 then fixed 4 n else Json.natDigits n) = ds ∧ ds ≠ [] ∧
        (∀ c ∈ ds, Json.isDigit c = true) ∧ val 0 ds = n := by
      split
      · rename_i h
        obtain ⟨f1, f2, f3⟩ := fixed_spec 4 n
        exact ⟨_, rfl, fixed_ne 4 n (by omega), f1, by rw [f3]; omega⟩
      · obtain ⟨n1, n2, n3, -⟩ := Json.natDigits_facts (n + 1) n (by omega)
        exact ⟨_, rfl, n3, n1, n2⟩
    obtain ⟨ds, e, k1, k2, k3⟩ := key
    rw [e, number_cons _ _ _ k1 k2, digits_none _ _ _ k2 (by omega), k3, digits_stop _ _ _ hr]
  rw [showYear]
  split
  · rename_i h
    obtain ⟨f1, f2, f3⟩ := fixed_spec 4 y.toNat
    have ht := trimStart_digits _ rest (fixed_ne 4 y.toNat (by omega)) f1
    have hn := number_fixed 4 y.toNat rest (by omega) (by omega) (by omega)
    rw [numericYear, ht]
    cases hf : fixed 4 y.toNat with
    | nil => rw [hf] at f2; simp at f2
    | cons c ds =>
      rw [hf] at f1 hn
      have hc := f1 c (by simp)
      have h1 : c ≠ '-' := by rintro rfl; revert hc; decide
      have h2 : c ≠ '+' := by rintro rfl; revert hc; decide
      rw [List.cons_append] at hn ⊢
      split
      · rename_i heq; injection heq; contradiction
      · rename_i heq; injection heq; contradiction
      · rw [hn]
        simp only [Option.map_some, Option.some.injEq, Prod.mk.injEq, and_true]
        omega
  · rename_i h
    have := hsigned y.natAbs hy
    by_cases hneg : y < 0
    · rw [if_pos hneg, List.cons_append, numericYear, trimStart_cons (by decide)]
      simp only
      rw [this]
      simp only [Option.map_some, Option.some.injEq, Prod.mk.injEq, and_true]
      omega
    · rw [if_neg hneg, List.cons_append, numericYear, trimStart_cons (by decide)]
      simp only
      rw [this]
      simp only [Option.map_some, Option.some.injEq, Prod.mk.injEq, and_true]
      omega

theorem number_fixed9 (w n : Nat) (rest : Str) (h0 : 0 < w) (h9 : w ≤ 9) (hn : n < 10 ^ w)
    (hr : NoDigit rest) : number (some 9) (fixed w n ++ rest) = some (n, rest) := by
  obtain ⟨f1, f2, f3⟩ := fixed_spec w n
  have hv : val 0 (fixed w n) = n := by rw [f3, Nat.mod_eq_of_lt hn]; omega
  have hp : 10 ^ w ≤ 10 ^ 9 := Nat.pow_le_pow_right (by omega) h9
  have hd := digits_some (fixed w n) rest (9 - w) 0 f1 (by rw [hv]; omega)
  rw [number_cons _ _ _ (fixed_ne w n h0) f1]
  rw [f2, show w + (9 - w) = 9 by omega, hv] at hd
  rw [hd, digits_stop _ _ _ hr]

theorem nanosecond_fixed (w n : Nat) (rest : Str) (h0 : 0 < w) (h9 : w ≤ 9) (hn : n < 10 ^ w)
    (hr : NoDigit rest) :
    nanosecond ('.' :: (fixed w n ++ rest)) = some (n * 10 ^ (9 - w), rest) := by
  have hl := (fixed_spec w n).2.1
  have hd : rest.dropWhile Json.isDigit = rest := by
    cases rest with
    | nil => rfl
    | cons c r => simp [hr c rfl]
  rw [nanosecond, number_fixed9 w n rest h0 h9 hn hr]
  simp only [List.length_append, hl, Nat.add_sub_cancel, hd]

theorem nanosecond_show (ns : Nat) (rest : Str) (h : ns < 1000000000) (hr : NoDigit rest)
    (hd : ∀ c ∈ rest.head?, c ≠ '.') :
    nanosecond (showFraction ns ++ rest) = some (ns, rest) := by
  rw [showFraction]
  split
  · rename_i h0
    subst h0
    rw [List.nil_append]
    unfold nanosecond
    split
    · exact absurd rfl (hd '.' rfl)
    · rfl
  · split
    · rw [List.cons_append, nanosecond_fixed 3 _ rest (by omega) (by omega) (by omega) hr]
      simp only [Option.some.injEq, Prod.mk.injEq, and_true]
      omega
    · split
      · rw [List.cons_append, nanosecond_fixed 6 _ rest (by omega) (by omega) (by omega) hr]
        simp only [Option.some.injEq, Prod.mk.injEq, and_true]
        omega
      · rw [List.cons_append, nanosecond_fixed 9 _ rest (by omega) (by omega) (by omega) hr]
        simp

theorem parseDate_show (x : Date) (rest : Str) (hy : x.year.natAbs < 2 ^ 63) (hm : x.month < 100)
    (hd : x.day < 100) :
    parseDate (showYear x.year ++ '-' :: (fixed 2 x.month ++ '-' :: (fixed 2 x.day ++ rest))) =
      some (x, rest) := by
  rw [parseDate, numericYear_show _ _ hy (by intro c hc; simp at hc; subst hc; rfl)]
  simp only [Option.bind_eq_bind, Option.bind_some]
  rw [separator_cons _ _ (by decide)]
  simp only [Option.bind_some]
  rw [numeric2_fixed _ _ hm]
  simp only [Option.bind_some]
  rw [separator_cons _ _ (by decide)]
  simp only [Option.bind_some]
  rw [numeric2_fixed _ _ hd]
  rfl

theorem parseClock_zone (sod ns : Nat) (zone z : Str) (h : sod < 86400) (hn : ns < 1000000000)
    (h1 : NoDigit zone) (h2 : ∀ c ∈ zone.head?, c ≠ '.') (h3 : trimStart zone = z) (h4 : zulu z = some (0, [])) :
    parseClock (fixed 2 (sod / 3600) ++ ':' :: (fixed 2 (sod / 60 % 60) ++ ':' ::
      (fixed 2 (sod % 60) ++ (showFraction ns ++ zone)))) = some (sod, ns, 0, []) := by
  rw [parseClock, numeric2_fixed _ _ (by omega)]
  simp only [Option.bind_eq_bind, Option.bind_some]
  rw [separator_cons _ _ (by decide)]
  simp only [Option.bind_some]
  rw [numeric2_fixed _ _ (by omega)]
  simp only [Option.bind_some]
  rw [separator_cons _ _ (by decide)]
  simp only [Option.bind_some]
  rw [numeric2_fixed _ _ (by omega)]
  simp only [Option.bind_some]
  rw [nanosecond_show ns _ hn h1 h2]
  simp only [Option.bind_some]
  rw [h3, h4]
  simp only [Option.bind_some]
  rw [if_pos (by omega)]
  simp only [trimStart, List.dropWhile_nil, Option.some.injEq, Prod.mk.injEq, and_true]
  omega

theorem parseClock_show (sod ns : Nat) (h : sod < 86400) (hn : ns < 1000000000) :
    parseClock (fixed 2 (sod / 3600) ++ ':' :: (fixed 2 (sod / 60 % 60) ++ ':' ::
      (fixed 2 (sod % 60) ++ (showFraction ns ++ ['Z'])))) = some (sod, ns, 0, []) :=
  parseClock_zone sod ns _ ['Z'] h hn (by intro c hc; simp at hc; subst hc; rfl)
    (by intro c hc; simp at hc; subst hc; decide) (by decide) (by decide)

theorem parseClock_disp (sod ns : Nat) (h : sod < 86400) (hn : ns < 1000000000) :
    parseClock (fixed 2 (sod / 3600) ++ ':' :: (fixed 2 (sod / 60 % 60) ++ ':' ::
      (fixed 2 (sod % 60) ++ (showFraction ns ++ str! " UTC")))) = some (sod, ns, 0, []) :=
  parseClock_zone sod ns _ (str! "UTC") h hn (by intro c hc; simp at hc; subst hc; rfl)
    (by intro c hc; simp at hc; subst hc; decide) (by decide) (by decide)

/-! ### The range of representable times -/

/-- Days before the year, in the counting of `numDaysFromCe`. -/
def yearStart (y : Int) : Int := (y - 1) * 1461 / 4 - (y - 1) / 100 + (y - 1) / 100 / 4

theorem yearStart_succ (y : Int) :
    yearStart (y + 1) = yearStart y + if isLeap y then 366 else 365 := by
  have e1 := days_before (y / 400) (y % 400)
  have e2 := days_before (y / 400) (y % 400 + 1)
  have hk : y / 400 * 400 + y % 400 = y := by omega
  rw [← Int.add_assoc, hk, yearDelta_succ] at e2
  rw [hk] at e1
  have hlp := isLeap_add (y % 400) (y / 400)
  rw [hk] at hlp
  rw [← hlp] at e2
  simp only [yearStart]
  split at e2 <;> rename_i hc <;> simp only [hc, if_true, if_false, Bool.false_eq_true] <;> omega

theorem yearStart_mono (y z : Int) (h : y ≤ z) : yearStart y ≤ yearStart z := by
  obtain ⟨k, rfl⟩ := Int.le.dest h
  clear h
  induction k with
  | zero => simp
  | succ k ih =>
    have := yearStart_succ (y + k)
    push_cast
    rw [← Int.add_assoc]
    split at this <;> omega

theorem numDays_bounds (x : Date) (h : IsDate x) :
    yearStart x.year + 1 ≤ numDaysFromCe x ∧ numDaysFromCe x ≤ yearStart (x.year + 1) := by
  obtain ⟨year, month, day⟩ := x
  obtain ⟨h1, h2, h3, h4⟩ := h
  simp only at h1 h2 h3 h4 ⊢
  have hle := sum_take_add_le _ _ _ (monthLengths_get year month h1 h2)
  rw [sum_monthLengths] at hle
  have hs := yearStart_succ year
  rw [hs]
  simp only [numDaysFromCe, ordinal, yearStart]
  split at hle <;> rename_i hc <;> simp only [hc, if_true, if_false, Bool.false_eq_true] at hle ⊢ <;>
    omega

theorem year_valid (t : Time) (h : Time.Valid t) :
    -262144 ≤ (fromDaysFromCe (t / 1000000000 / 86400 + epochDay)).year ∧
    (fromDaysFromCe (t / 1000000000 / 86400 + epochDay)).year ≤ 262143 := by
  have h1 : (-8334632851200000000000 : Int) ≤ t := h.1
  have h2 : (8210298412799999999999 : Int) ≥ t := h.2
  have hb := numDays_bounds _ (fromDays_isDate (t / 1000000000 / 86400 + epochDay))
  rw [numDays_fromDays] at hb
  simp only [epochDay] at *
  generalize (fromDaysFromCe (t / 1000000000 / 86400 + 719163)).year = y at *
  constructor
  · by_cases hy : y + 1 ≤ -262144
    · have := yearStart_mono _ _ hy
      rw [show yearStart (-262144) = -95746496 by decide] at this
      omega
    · omega
  · by_cases hy : 262144 ≤ y
    · have := yearStart_mono _ _ hy
      rw [show yearStart 262144 = 95745764 by decide] at this
      omega
    · omega

theorem validDate_iff (x : Date) :
    validDate x = true ↔ IsDate x ∧ -262144 ≤ x.year ∧ x.year ≤ 262143 := by
  obtain ⟨year, month, day⟩ := x
  simp only [validDate, IsDate, Bool.and_eq_true, decide_eq_true_eq]
  by_cases hm : 1 ≤ month ∧ month ≤ 12
  · rw [monthLengths_get year month hm.1 hm.2]
    simp only [decide_eq_true_eq]
    omega
  · constructor
    · rintro ⟨⟨⟨⟨a, b⟩, c⟩, d⟩, e⟩
      rw [List.getElem?_eq_none (by simp [monthLengths]; omega)] at e
      cases e
    · rintro ⟨⟨a, b, -⟩, -⟩
      exact absurd ⟨a, b⟩ hm

/-- Reading what was written. -/
theorem parse_show (t : Time) (h : Time.Valid t) : parseTime (showTime t) = some t := by
  have hv := year_valid t h
  have hd := fromDays_isDate (t / 1000000000 / 86400 + epochDay)
  have hn := numDays_fromDays (t / 1000000000 / 86400 + epochDay)
  have hvalid := (validDate_iff _).2 ⟨hd, hv⟩
  have hml : monthLength (fromDaysFromCe (t / 1000000000 / 86400 + epochDay)).year
      (fromDaysFromCe (t / 1000000000 / 86400 + epochDay)).month ≤ 31 := by
    simp only [monthLength]; split_ifs <;> omega
  obtain ⟨d1, d2, d3, d4⟩ := hd
  simp only [showTime]
  generalize fromDaysFromCe (t / 1000000000 / 86400 + epochDay) = x at *
  rw [parseTime, parseDate_show x _ (by omega) (by omega) (by omega)]
  simp only [Option.bind_eq_bind, Option.bind_some, true_or, if_true]
  have hs : (t / 1000000000 % 86400).toNat < 86400 := by omega
  have hns : (t % 1000000000).toNat < 1000000000 := by omega
  rw [parseClock_show _ _ hs hns]
  simp only [Option.bind_some]
  have ht : ((numDaysFromCe x - epochDay) * 86400 + ((t / 1000000000 % 86400).toNat : Int) - 0) *
      1000000000 + ((t % 1000000000).toNat : Int) = t := by
    rw [hn]
    simp only [epochDay]
    omega
  rw [ht, if_pos ⟨trivial, hvalid, h⟩]

/-- Reading what was displayed. -/
theorem parse_disp (t : Time) (h : Time.Valid t) : parseTime (dispTime t) = some t := by
  have hv := year_valid t h
  have hd := fromDays_isDate (t / 1000000000 / 86400 + epochDay)
  have hn := numDays_fromDays (t / 1000000000 / 86400 + epochDay)
  have hvalid := (validDate_iff _).2 ⟨hd, hv⟩
  have hml : monthLength (fromDaysFromCe (t / 1000000000 / 86400 + epochDay)).year
      (fromDaysFromCe (t / 1000000000 / 86400 + epochDay)).month ≤ 31 := by
    simp only [monthLength]; split_ifs <;> omega
  obtain ⟨d1, d2, d3, d4⟩ := hd
  simp only [dispTime]
  generalize fromDaysFromCe (t / 1000000000 / 86400 + epochDay) = x at *
  rw [parseTime, parseDate_show x _ (by omega) (by omega) (by omega)]
  simp only [Option.bind_eq_bind, Option.bind_some, or_true, if_true]
  have hs : (t / 1000000000 % 86400).toNat < 86400 := by omega
  have hns : (t % 1000000000).toNat < 1000000000 := by omega
  rw [parseClock_disp _ _ hs hns]
  simp only [Option.bind_some]
  have ht : ((numDaysFromCe x - epochDay) * 86400 + ((t / 1000000000 % 86400).toNat : Int) - 0) *
      1000000000 + ((t % 1000000000).toNat : Int) = t := by
    rw [hn]
    simp only [epochDay]
    omega
  rw [ht, if_pos ⟨trivial, hvalid, h⟩]

end Oid4vci.Chrono
