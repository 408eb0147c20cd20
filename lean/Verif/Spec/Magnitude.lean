import Verif.Base.Json
import Verif.Spec.Range
import Mathlib.Algebra.Order.Field.Rat
import Mathlib.Algebra.Ring.Int.Parity

/-! The size of numbers in texts. -/

namespace Oid4vci.Spec

/-- The absolute value of the number with integer digits `i`, fraction digits `f` and exponent `x`. -/
def magnitude (i f : List Nat) (x : Int) : ℚ := (numeral 10 (i ++ f) : ℚ) * 10 ^ (x - f.length)

/-- `1.797693134862315e308`, just below the largest double `1.7976931348623157…e308`. -/
def surelyRead : Nat := 1797693134862315 * 10 ^ 293

/-- `1.797693134862317e308`, just above it. -/
def surelyRefused : Nat := 1797693134862317 * 10 ^ 293

/-- The value occurs in the document. -/
inductive Contains : Json → Json → Prop
  | self (j : Json) : Contains j j
  | element (x y : Json) (xs : List Json) : x ∈ xs → Contains x y → Contains (.arr xs) y
  | member (k : Str) (v y : Json) (kvs : List (Str × Json)) : (k, v) ∈ kvs → Contains v y →
      Contains (.obj kvs) y

end Oid4vci.Spec
