import Verif.Spec.Calendar
import Mathlib.Tactic.SplitIfs

namespace Oid4vci.Chrono
open Spec

theorem isLeap_iff (y : Int) : isLeap y = true ↔ LeapYear y := by
  simp only [isLeap, LeapYear, Bool.and_eq_true, Bool.or_eq_true, decide_eq_true_eq]
  omega

theorem monthDay_spec (ls : List Nat) (m o : Nat) (ho : o < ls.sum) :
    ∃ k d l, monthDay ls m o = (m + k, d) ∧ ls[k]? = some l ∧ 1 ≤ d ∧ d ≤ l ∧
      (ls.take k).sum + d = o + 1 := by
  induction ls generalizing m o with
  | nil => simp at ho
  | cons l ls ih =>
    rw [List.sum_cons] at ho
    rw [monthDay]
    by_cases h : o < l
    · exact ⟨0, o + 1, l, by rw [if_pos h]; simp, by simp, by omega, by omega, by simp⟩
    · obtain ⟨k, d, l', h1, h2, h3, h4, h5⟩ := ih (m + 1) (o - l) (by omega)
      refine ⟨k + 1, d, l', ?_, by simpa using h2, h3, h4, ?_⟩
      · rw [if_neg h, h1, Nat.add_right_comm, Nat.add_assoc]
      · rw [List.take_succ_cons, List.sum_cons]; omega

theorem monthDay_take (ls : List Nat) (m k d l : Nat) (h : ls[k]? = some l) (hd : d < l) :
    monthDay ls m ((ls.take k).sum + d) = (m + k, d + 1) := by
  induction ls generalizing m k with
  | nil => simp at h
  | cons a ls ih =>
    rw [monthDay]
    cases k with
    | zero =>
      have : a = l := by simpa using h
      rw [if_pos (by simp; omega)]; simp
    | succ k =>
      rw [List.take_succ_cons, List.sum_cons, if_neg (by omega),
        show a + (ls.take k).sum + d - a = (ls.take k).sum + d by omega,
        ih (m + 1) k (by simpa using h)]
      rw [Nat.add_right_comm, Nat.add_assoc]

theorem sum_monthLengths (leap : Bool) : (monthLengths leap).sum = if leap then 366 else 365 := by
  cases leap <;> rfl

theorem monthLengths_get (y : Int) (m : Nat) (h1 : 1 ≤ m) (h2 : m ≤ 12) :
    (monthLengths (isLeap y))[m - 1]? = some (monthLength y m) := by
  have hl := isLeap_iff y
  have : m = 1 ∨ m = 2 ∨ m = 3 ∨ m = 4 ∨ m = 5 ∨ m = 6 ∨ m = 7 ∨ m = 8 ∨ m = 9 ∨ m = 10 ∨ m = 11 ∨
    m = 12 := by omega
  rcases this with rfl | rfl | rfl | rfl | rfl | rfl | rfl | rfl | rfl | rfl | rfl | rfl <;>
    simp [monthLengths, monthLength, ← hl]

theorem isLeap_add (y k : Int) : isLeap (k * 400 + y) = isLeap y := by
  rw [Bool.eq_iff_iff, isLeap_iff, isLeap_iff]
  simp only [LeapYear]
  omega

theorem yearDelta_succ (y : Int) :
    yearDelta (y + 1) = yearDelta y + if isLeap y then 1 else 0 := by
  have key : isLeap y = true ↔ 4 ∣ y ∧ (100 ∣ y → 400 ∣ y) := isLeap_iff y
  simp only [yearDelta]
  by_cases h4 : 4 ∣ y
  · by_cases h100 : 100 ∣ y
    · by_cases h400 : 400 ∣ y
      · rw [if_pos (key.2 ⟨h4, fun _ => h400⟩)]; omega
      · rw [if_neg (fun h => h400 ((key.1 h).2 h100))]; omega
    · rw [if_pos (key.2 ⟨h4, fun h => absurd h h100⟩)]; omega
  · rw [if_neg (fun h => h4 (key.1 h).1)]; omega

theorem yearDelta_mono (y : Int) (h0 : 0 ≤ y) (h1 : y ≤ 400) :
    0 ≤ yearDelta y ∧ yearDelta y ≤ 97 ∧ (y = 0 → yearDelta y = 0) ∧ (y = 400 → yearDelta y = 97) := by
  simp only [yearDelta]
  omega

theorem cycleToYo_spec (c : Int) (h0 : 0 ≤ c) (h1 : c < 146097) :
    ∃ y o, cycleToYo c = (y, o) ∧ 0 ≤ y ∧ y < 400 ∧ 0 ≤ o ∧
      o < (if isLeap y then 366 else 365) ∧ c = 365 * y + yearDelta y + o := by
  simp only [cycleToYo]
  have hb := yearDelta_mono (c / 365) (by omega) (by omega)
  by_cases h : c % 365 < yearDelta (c / 365)
  · refine ⟨c / 365 - 1, c % 365 + 365 - yearDelta (c / 365 - 1), by rw [if_pos h], ?_⟩
    have hs := yearDelta_succ (c / 365 - 1)
    rw [Int.sub_add_cancel] at hs
    have hpos : 1 ≤ c / 365 := by
      by_cases h0 : c / 365 = 0
      · rw [hb.2.2.1 h0] at h; omega
      · omega
    have hb' := yearDelta_mono (c / 365 - 1) (by omega) (by omega)
    generalize yearDelta (c / 365 - 1) = a at *
    generalize yearDelta (c / 365) = b at *
    split <;> simp_all only [Bool.false_eq_true, if_true, if_false] <;> omega
  · refine ⟨c / 365, c % 365 - yearDelta (c / 365), by rw [if_neg h], ?_⟩
    generalize yearDelta (c / 365) = b at *
    split <;> omega

/-- Days before the year `400 k + y`, in the counting of `numDaysFromCe`. -/
theorem days_before (k y : Int) :
    (k * 400 + y - 1) * 1461 / 4 - (k * 400 + y - 1) / 100 + (k * 400 + y - 1) / 100 / 4 + 366 =
      146097 * k + 365 * y + yearDelta y := by
  have a1 : (k * 400 + y - 1) * 1461 / 4 = 146100 * k + 365 * (y - 1) + (y + 3) / 4 - 1 := by omega
  have a2 : (k * 400 + y - 1) / 100 = 4 * k + (y + 99) / 100 - 1 := by omega
  have a3 : (4 * k + (y + 99) / 100 - 1) / 4 = k + (y + 399) / 400 - 1 := by omega
  rw [a2, a3, a1]
  simp only [yearDelta]
  omega

theorem cycleToYo_eq (y o : Int) (h0 : 0 ≤ y) (h1 : y < 400) (h2 : 0 ≤ o)
    (h3 : o < if isLeap y then 366 else 365) :
    cycleToYo (365 * y + yearDelta y + o) = (y, o) ∧ 0 ≤ 365 * y + yearDelta y + o ∧
      365 * y + yearDelta y + o < 146097 := by
  have hs := yearDelta_succ y
  have hb := yearDelta_mono y h0 (by omega)
  have hb' := yearDelta_mono (y + 1) (by omega) (by omega)
  have hr : (y < 399 ∨ yearDelta (y + 1) = 97) := by
    by_cases h : y < 399
    · exact .inl h
    · exact .inr (hb'.2.2.2 (by omega))
  simp only [cycleToYo]
  by_cases h : yearDelta y + o < 365
  · have hq : (365 * y + yearDelta y + o) / 365 = y := by omega
    rw [hq, if_neg (by omega)]
    refine ⟨by congr 1; omega, by omega, by omega⟩
  · have hq : (365 * y + yearDelta y + o) / 365 = y + 1 := by split at h3 <;> omega
    rw [hq, Int.add_sub_cancel, if_pos (by split at h3 <;> simp_all <;> omega)]
    refine ⟨by congr 1; omega, by omega, ?_⟩
    split at h3 <;> simp_all <;> omega

theorem numDays_fromDays (n : Int) : numDaysFromCe (fromDaysFromCe n) = n := by
  obtain ⟨y, o, he, h1, h2, h3, h4, h5⟩ :=
    cycleToYo_spec ((n + 365) % 146097) (by omega) (by omega)
  obtain ⟨k, d, l, e1, e2, e3, e4, e5⟩ :=
    monthDay_spec (monthLengths (isLeap ((n + 365) / 146097 * 400 + y))) 1 o.toNat (by
      rw [sum_monthLengths, isLeap_add]; split at h4 <;> simp_all)
  have hd := days_before ((n + 365) / 146097) y
  simp only [fromDaysFromCe, he, e1, numDaysFromCe, ordinal, Nat.add_sub_cancel_left]
  rw [e5]
  push_cast
  omega

theorem fromDays_isDate (n : Int) : IsDate (fromDaysFromCe n) := by
  obtain ⟨y, o, he, h1, h2, h3, h4, h5⟩ :=
    cycleToYo_spec ((n + 365) % 146097) (by omega) (by omega)
  obtain ⟨k, d, l, e1, e2, e3, e4, e5⟩ :=
    monthDay_spec (monthLengths (isLeap ((n + 365) / 146097 * 400 + y))) 1 o.toNat (by
      rw [sum_monthLengths, isLeap_add]; split at h4 <;> simp_all)
  have hk : k < 12 := by
    rw [List.getElem?_eq_some_iff] at e2
    exact e2.1
  have hg := monthLengths_get ((n + 365) / 146097 * 400 + y) (1 + k) (by omega) (by omega)
  rw [Nat.add_sub_cancel_left, e2] at hg
  simp only [fromDaysFromCe, he, e1, IsDate]
  injection hg with hg
  exact ⟨by omega, by omega, e3, hg ▸ e4⟩

theorem sum_take_add_le (ls : List Nat) (k l : Nat) (h : ls[k]? = some l) :
    (ls.take k).sum + l ≤ ls.sum := by
  induction ls generalizing k with
  | nil => simp at h
  | cons a ls ih =>
    cases k with
    | zero => simp at h ⊢; omega
    | succ k =>
      have := ih k (by simpa using h)
      simp only [List.take_succ_cons, List.sum_cons]
      omega

theorem fromDays_numDays (x : Date) (h : IsDate x) : fromDaysFromCe (numDaysFromCe x) = x := by
  obtain ⟨year, month, day⟩ := x
  obtain ⟨h1, h2, h3, h4⟩ := h
  simp only at h1 h2 h3 h4
  have hg := monthLengths_get year month h1 h2
  have hk : year = year / 400 * 400 + year % 400 := by omega
  have hd := days_before (year / 400) (year % 400)
  rw [← hk] at hd
  have hle := sum_take_add_le _ _ _ hg
  rw [sum_monthLengths] at hle
  have hlp : isLeap (year % 400) = isLeap year := by
    have := isLeap_add (year % 400) (year / 400)
    rw [← hk] at this
    exact this.symm
  have ho : ordinal ⟨year, month, day⟩ =
    ((monthLengths (isLeap year)).take (month - 1)).sum + day := rfl
  obtain ⟨c1, c2, c3⟩ := cycleToYo_eq (year % 400) (ordinal ⟨year, month, day⟩ - 1) (by omega)
    (by omega) (by omega) (by
      rw [hlp, ho]
      generalize ((monthLengths (isLeap year)).take (month - 1)).sum = q at *
      split <;> rename_i hc <;> simp only [hc, if_true, if_false, Bool.false_eq_true] at hle <;>
        omega)
  have hn : numDaysFromCe ⟨year, month, day⟩ + 365 = 146097 * (year / 400) +
      (365 * (year % 400) + yearDelta (year % 400) + (ordinal ⟨year, month, day⟩ - 1)) := by
    simp only [numDaysFromCe]; omega
  have hmod : (numDaysFromCe ⟨year, month, day⟩ + 365) % 146097 =
    365 * (year % 400) + yearDelta (year % 400) + (ordinal ⟨year, month, day⟩ - 1) := by omega
  have hdiv : (numDaysFromCe ⟨year, month, day⟩ + 365) / 146097 = year / 400 := by omega
  simp only [fromDaysFromCe]
  rw [hmod, hdiv, c1]
  simp only [← hk]
  have hm := monthDay_take _ 1 (month - 1) (day - 1) _ hg (by omega)
  have : ((ordinal ⟨year, month, day⟩ : Int) - 1).toNat =
    ((monthLengths (isLeap year)).take (month - 1)).sum + (day - 1) := by rw [ho]; omega
  rw [this, hm]
  congr 1 <;> omega

theorem numDays_next (x : Date) (h : IsDate x) : numDaysFromCe (nextDay x) = numDaysFromCe x + 1 := by
  obtain ⟨year, month, day⟩ := x
  obtain ⟨h1, h2, h3, h4⟩ := h
  simp only at h1 h2 h3 h4
  have hl := isLeap_iff year
  by_cases hd : day < monthLength year month
  · simp only [nextDay, hd, if_true, numDaysFromCe, ordinal]; push_cast; omega
  · by_cases hm : month < 12
    · have hg := monthLengths_get year month h1 h2
      have hday : day = monthLength year month := by omega
      have ht : ((monthLengths (isLeap year)).take (month + 1 - 1)).sum =
          ((monthLengths (isLeap year)).take (month - 1)).sum + monthLength year month := by
        rw [show month + 1 - 1 = month - 1 + 1 by omega, List.take_add_one, hg]
        simp
      simp only [nextDay, hd, hm, if_true, if_false, numDaysFromCe, ordinal, ht]
      rw [hday]
      push_cast
      omega
    · have hm : month = 12 := by omega
      subst hm
      have hday : day = 31 := by simp only [monthLength] at hd h4; simp at hd h4; omega
      subst hday
      have ho : ∀ b, ((monthLengths b).take 11).sum = if b then 335 else 334 := by decide
      have e1 := days_before (year / 400) (year % 400)
      have e2 := days_before (year / 400) (year % 400 + 1)
      have hk : year / 400 * 400 + year % 400 = year := by omega
      rw [← Int.add_assoc, hk, yearDelta_succ] at e2
      rw [hk] at e1
      have hlp := isLeap_add (year % 400) (year / 400)
      rw [hk] at hlp
      rw [← hlp] at e2
      simp only [nextDay, hd, if_false, numDaysFromCe, ordinal, ho, Nat.reduceLT, Nat.reduceSub,
        List.take_zero, List.sum_nil]
      push_cast
      split at e2 <;> rename_i hc <;> simp only [hc, if_true, if_false, Bool.false_eq_true] <;> omega

theorem nextDay_isDate (x : Date) (h : IsDate x) : IsDate (nextDay x) := by
  obtain ⟨year, month, day⟩ := x
  obtain ⟨h1, h2, h3, h4⟩ := h
  simp only at h1 h2 h3 h4
  have hp : ∀ y m, 1 ≤ monthLength y m := by
    intro y m
    simp only [monthLength]
    split_ifs <;> omega
  simp only [nextDay]
  by_cases hd : day < monthLength year month
  · rw [if_pos hd]; exact ⟨h1, h2, by simp, by simp only; omega⟩
  · rw [if_neg hd]
    by_cases hm : month < 12
    · rw [if_pos hm]; exact ⟨by simp, by simp only; omega, by simp, hp _ _⟩
    · rw [if_neg hm]; exact ⟨by simp, by simp, by simp, hp _ _⟩

theorem fromDays_next (n : Int) : fromDaysFromCe (n + 1) = nextDay (fromDaysFromCe n) := by
  have h := fromDays_isDate n
  rw [← fromDays_numDays _ (nextDay_isDate _ h), numDays_next _ h, numDays_fromDays]

end Oid4vci.Chrono
