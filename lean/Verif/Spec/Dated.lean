import Verif.Spec.Instant

/-! Specification of the date-time texts which are written. -/

namespace Oid4vci.Spec
open Chrono (Date)

/-- Years: four digits from 0000 to 9999; any other year with its sign and as few digits as it needs,
but at least four. -/
inductive WrittenYear : Str → Int → Prop
  | plain (ds : Str) : IsDigits ds → ds.length = 4 → WrittenYear ds (decimal ds)
  | later (ds : Str) : IsDigits ds → 5 ≤ ds.length → ds.head? ≠ some '0' → WrittenYear ('+' :: ds) (decimal ds)
  | earlier (ds : Str) : IsDigits ds → decimal ds ≠ 0 →
      ds.length = 4 ∨ (5 ≤ ds.length ∧ ds.head? ≠ some '0') → WrittenYear ('-' :: ds) (-(decimal ds : Int))

/-- Fractions of a second: as many groups of three digits as it needs. -/
inductive WrittenFraction : Str → Nat → Prop
  | none : WrittenFraction [] 0
  | some (ds : Str) : IsDigits ds → ds.length ∈ [3, 6, 9] → ¬ str! "000" <:+ ds →
      WrittenFraction ('.' :: ds) (nanos ds)

/-- A date-time in UTC, with this separator of date and time and this name of the zone. -/
def WrittenInstant (sep : Char) (zone s : Str) (t : Time) : Prop :=
  ∃ (y mo d h mi sec frac : Str) (ns : Nat) (x : Date) (day : Int),
    s = y ++ '-' :: (mo ++ '-' :: (d ++ sep :: (h ++ ':' :: (mi ++ ':' :: (sec ++ (frac ++ zone)))))) ∧
    WrittenYear y x.year ∧ IsDigits mo ∧ IsDigits d ∧ IsDigits h ∧ IsDigits mi ∧ IsDigits sec ∧
    mo.length = 2 ∧ d.length = 2 ∧ h.length = 2 ∧ mi.length = 2 ∧ sec.length = 2 ∧
    decimal mo = x.month ∧ decimal d = x.day ∧ decimal h ≤ 23 ∧ decimal mi ≤ 59 ∧ decimal sec ≤ 59 ∧
    WrittenFraction frac ns ∧ DayNumber x day ∧
    t = instantOf day (decimal h) (decimal mi) (decimal sec) ns 0

end Oid4vci.Spec
