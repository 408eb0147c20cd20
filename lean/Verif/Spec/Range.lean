import Verif.Spec.JsonNumber

/-! The parts of numbers, and which numbers are too large for double precision. -/

namespace Oid4vci.Spec

/-- The text of a number (RFC 8259 section 6) with integer digits `i`, fraction digits `f` and
exponent `x`. -/
def NumberParts (s : Str) (i f : List Nat) (x : Int) : Prop :=
  ∃ sign si sf se, sign ∈ [[], ['-']] ∧ s = sign ++ si ++ sf ++ se ∧ DigitsText i si ∧
    ((sf = [] ∧ f = []) ∨ ∃ t, DigitsText f t ∧ sf = '.' :: t) ∧
    ((se = [] ∧ x = 0) ∨ ∃ ds t, DigitsText ds t ∧ ∃ c ∈ ['e', 'E'],
      (se = c :: t ∧ x = numeral 10 ds) ∨ (se = c :: '+' :: t ∧ x = numeral 10 ds) ∨
      (se = c :: '-' :: t ∧ x = -(numeral 10 ds : Int)))

/-- The first `k` digits of `ds` are as many as can follow `pre` in a number below `2^64`. -/
def Longest (pre ds : List Nat) (k : Nat) : Prop :=
  k ≤ ds.length ∧ numeral 10 (pre ++ ds.take k) < 2 ^ 64 ∧
    (k < ds.length → 2 ^ 64 ≤ numeral 10 (pre ++ ds.take (k + 1)))

/-- What is rounded to infinity in double precision: from halfway between the largest double,
`(2^53 - 1) * 2^971`, and `2^1024`. -/
def tooLarge : Nat := (2 ^ 54 - 1) * 2 ^ 970

end Oid4vci.Spec
