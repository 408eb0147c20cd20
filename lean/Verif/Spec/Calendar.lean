import Verif.Model.Chrono

/-!
The Gregorian calendar, stated by its leap-year rule and by what the next day is.
-/

namespace Oid4vci.Spec
open Chrono (Date)

/-- Years divisible by 4, except the centuries not divisible by 400. -/
def LeapYear (y : Int) : Prop := 4 ∣ y ∧ (100 ∣ y → 400 ∣ y)

instance (y : Int) : Decidable (LeapYear y) := inferInstanceAs (Decidable (_ ∧ _))

/-- "Thirty days hath September, April, June and November." -/
def monthLength (y : Int) (m : Nat) : Nat :=
  if m = 2 then (if LeapYear y then 29 else 28)
  else if m = 4 ∨ m = 6 ∨ m = 9 ∨ m = 11 then 30
  else 31

/-- A day of the calendar. -/
def IsDate (x : Date) : Prop :=
  1 ≤ x.month ∧ x.month ≤ 12 ∧ 1 ≤ x.day ∧ x.day ≤ monthLength x.year x.month

/-- The following day. -/
def nextDay (x : Date) : Date :=
  if x.day < monthLength x.year x.month then ⟨x.year, x.month, x.day + 1⟩
  else if x.month < 12 then ⟨x.year, x.month + 1, 1⟩
  else ⟨x.year + 1, 1, 1⟩

/-- `f` numbers the days of the calendar: 1970-01-01 is day 0, and the days follow one another. -/
structure NumbersDays (f : Int → Date) : Prop where
  epoch : f 0 = ⟨1970, 1, 1⟩
  next : ∀ n, f (n + 1) = nextDay (f n)
  isDate : ∀ n, IsDate (f n)

end Oid4vci.Spec
