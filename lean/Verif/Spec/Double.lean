import Verif.Base.Double
import Verif.Spec.Range
import Mathlib.Algebra.Order.Field.Rat
import Mathlib.Algebra.Order.Group.Abs
import Mathlib.Algebra.Ring.Int.Parity

/-! Double-precision numbers (IEEE 754 binary64), how texts denote them and how they are written. -/

namespace Oid4vci.Spec

/-- `m * 2^e` is the representation of a finite, nonnegative double-precision number: significands have 53
bits, and leading zeros only at the smallest exponent. -/
def IsDouble (m : Nat) (e : Int) : Prop :=
  m < 2 ^ 53 ∧ -1074 ≤ e ∧ e ≤ 971 ∧ (2 ^ 52 ≤ m ∨ e = -1074)

/-- The number represented. -/
def value (m : Nat) (e : Int) : ℚ := m * 2 ^ e

/-- `q` is rounded to `m * 2^e`: no double is closer to `q`, and if another one is as close, the significand
is even (IEEE 754, roundTiesToEven). What reaches `tooLarge` is rounded to infinity instead. -/
def RoundsTo (q : ℚ) (m : Nat) (e : Int) : Prop :=
  q < tooLarge ∧ IsDouble m e ∧ ∀ m' e', IsDouble m' e' →
    |q - value m e| ≤ |q - value m' e'| ∧
    (|q - value m e| = |q - value m' e'| → (m', e') ≠ (m, e) → 2 ∣ m)

/-- The double `x` times the power of ten, computed in double precision: with one multiplication or
division if the power of ten is a double, and otherwise, for very small numbers, with several divisions. -/
inductive Scaled : ℚ → Int → Nat → Int → Prop
  | up (x : ℚ) (k : Nat) (p : Nat) (pe : Int) (m : Nat) (e : Int) : k ≤ 308 → RoundsTo (10 ^ k) p pe →
      RoundsTo (x * value p pe) m e → Scaled x k m e
  | zero (k : Nat) : 308 < k → Scaled 0 k 0 (-1074)
  | down (x : ℚ) (k : Nat) (p : Nat) (pe : Int) (m : Nat) (e : Int) : 0 < k → k ≤ 308 →
      RoundsTo (10 ^ k) p pe → RoundsTo (x / value p pe) m e → Scaled x (-k) m e
  | far (x : ℚ) (k : Nat) (p : Nat) (pe : Int) (m : Nat) (e : Int) (m' : Nat) (e' : Int) : 308 < k →
      RoundsTo (10 ^ 308) p pe → RoundsTo (x / value p pe) m e → Scaled (value m e) (-(k - 308)) m' e' →
      Scaled x (-k) m' e'

/-- The text is read as the double `d`: the leading digits that fit 64 bits, as a double, times the power
of ten. -/
def ReadAs (s : Str) (d : Double) : Prop :=
  ∃ i f x, NumberParts s i f x ∧ (d.neg = true ↔ s.head? = some '-') ∧
    ∃ k l, Longest [] i k ∧ Longest (i.take k) f l ∧
      ∃ m e, RoundsTo (numeral 10 (i.take k ++ f.take l)) m e ∧
        Scaled (value m e) (x + (i.length - k : Nat) - l) d.mant d.exp

/-- `D * 10^k` is the shortest decimal that is rounded to `m * 2^e`: no power of ten above `10^k` has such a
multiple, and no other multiple of `10^k` is closer (if one is as close, `D` is even). -/
def Shortest (m : Nat) (e : Int) (D : Nat) (k : Int) : Prop :=
  RoundsTo (D * 10 ^ k) m e ∧
  (∀ (D' : Nat) k', RoundsTo (D' * 10 ^ k') m e → k' ≤ k) ∧
  ∀ D' : Nat, RoundsTo (D' * 10 ^ k) m e → |value m e - D * 10 ^ k| ≤ |value m e - D' * 10 ^ k| ∧
    (|value m e - D * 10 ^ k| = |value m e - D' * 10 ^ k| → D' ≠ D → 2 ∣ D)

/-- An integer without leading zeros or plus sign. -/
def IntegerText (n : Int) (s : Str) : Prop :=
  ∃ ds t, DigitsText ds t ∧ (ds.head? = some 0 → ds = [0]) ∧
    ((s = t ∧ n = numeral 10 ds) ∨ (s = '-' :: t ∧ n = -(numeral 10 ds : Int) ∧ n ≠ 0))

/-- How the digits `ds` of a decimal `ds * 10^k` are written: in full with a decimal point from `0.00001` up
to 16 digits before the point, and with an exponent otherwise. -/
inductive Laid (ds : Str) (k : Int) : Str → Prop
  | whole : 0 ≤ k → ds.length + k ≤ 16 → Laid ds k (ds ++ List.replicate k.toNat '0' ++ str! ".0")
  | inside (a b : Str) : ds = a ++ b → a ≠ [] → (b.length : Int) = -k → b ≠ [] → a.length ≤ 16 →
      Laid ds k (a ++ '.' :: b)
  | small (n : Nat) : (ds.length : Int) + k = -n → n < 5 →
      Laid ds k (str! "0." ++ List.replicate n '0' ++ ds)
  | single (c : Char) (x : Str) : ds = [c] → (16 < 1 + k ∨ 1 + k ≤ -5) → IntegerText k x →
      Laid ds k (c :: 'e' :: x)
  | scientific (c : Char) (r x : Str) : ds = c :: r → r ≠ [] →
      (16 < ds.length + k ∨ ds.length + k ≤ -5) → IntegerText (r.length + k) x →
      Laid ds k (c :: '.' :: (r ++ 'e' :: x))

/-- The text of a double: its sign and its shortest decimal. -/
def Shown (d : Double) (s : Str) : Prop :=
  ∃ t, s = (if d.neg then ['-'] else []) ++ t ∧
    ((d.mant = 0 ∧ t = str! "0.0") ∨
     (d.mant ≠ 0 ∧ ∃ D k ds u, Shortest d.mant d.exp D k ∧ DigitsText ds u ∧ ds.head? ≠ some 0 ∧
        D = numeral 10 ds ∧ Laid u k t))

/-- The number survives being written and read. -/
def Survives (d : Double) : Prop := IsDouble d.mant d.exp ∧ ∀ s, Shown d s → ReadAs s d

end Oid4vci.Spec
