import Verif.Base.Str

/-!
Double-precision numbers as serde_json 1.0.96 reads and writes them (without its features
`float_roundtrip` and `arbitrary_precision`, which Cargo.toml does not enable). They occur in the library
wherever it keeps arbitrary JSON: JSON-LD contexts and subjects (types/credential.rs:15-45), additional
members of tokens, JWKs, requests and metadata.
-/

namespace Oid4vci

/-- A finite `f64`: `mant * 2^exp`, negated if `neg`. Rust's values are those with `mant < 2^53`,
`-1074 ≤ exp ≤ 971` and `2^52 ≤ mant` unless `exp = -1074` (`Spec.IsDouble`). -/
structure Double where
  neg : Bool
  mant : Nat
  exp : Int
deriving DecidableEq, Repr

namespace Json

/-! ### Digits -/

/-- Decimal digits, most significant first; `fuel` bounds the number of digits. -/
def natDigitsAux : Nat → Nat → Str → Str
  | 0, _, acc => acc
  | fuel + 1, n, acc =>
    let acc := Char.ofNat (48 + n % 10) :: acc
    if n / 10 = 0 then acc else natDigitsAux fuel (n / 10) acc

/-- Decimal digits of a natural number (`itoa`). -/
def natDigits (n : Nat) : Str := natDigitsAux (n + 1) n []

/-- Decimal text of an integer (`itoa`). -/
def printInt : Int → Str
  | .ofNat n => natDigits n
  | .negSucc n => '-' :: natDigits (n + 1)

/-- Is `c` a decimal digit? -/
def isDigit (c : Char) : Bool := 48 ≤ c.toNat && c.toNat ≤ 57

/-- Value of a digit string. -/
def digitsVal (s : Str) : Nat := s.foldl (fun a c => a * 10 + (c.toNat - 48)) 0

/-! ### Rounding -/

/-- The double nearest to `num / den`, ties to even, as significand and exponent. The exponent is not
bounded above; it exceeds 971 exactly when the result is infinite. -/
def nearest (num den : Nat) : Nat × Int :=
  if num = 0 then (0, -1074)
  else
    let s : Int := (num.log2 : Int) - den.log2
    let e : Int := max (-1074) (if num * 2 ^ (-s).toNat < den * 2 ^ s.toNat then s - 53 else s - 52)
    let a := num * 2 ^ (-e).toNat
    let b := den * 2 ^ e.toNat
    let q := a / b
    let r := 2 * (a % b)
    let q := if r < b ∨ (r = b ∧ q % 2 = 0) then q else q + 1
    if q = 2 ^ 53 then (2 ^ 52, e + 1) else (q, e)

/-- The double nearest to `num / den * 2^e`: the result of a multiplication or division of doubles. -/
def rounded (num den : Nat) (e : Int) : Nat × Int := nearest (num * 2 ^ e.toNat) (den * 2 ^ (-e).toNat)

/-! ### Reading

serde_json accumulates the significand in a `u64` and multiplies or divides by a power of ten; what becomes
infinite is an error. Exponents are unbounded here; serde_json's `i32` arithmetic agrees for texts of less
than `2^31 - 400` digits. -/

/-- The digits that fit a `u64` significand: its value and how many they are (`parse_integer`,
`parse_decimal`). -/
def accumulate (sig : Nat) : Str → Nat × Nat
  | [] => (sig, 0)
  | c :: s =>
    let sig' := sig * 10 + (c.toNat - 48)
    if sig' < 2 ^ 64 then
      let p := accumulate sig' s
      (p.1, p.2 + 1)
    else (sig, 0)

/-- The value of the exponent part. -/
def exponent : Str → Int
  | _ :: c :: s =>
    if c = '-' then -(digitsVal s : Int) else if c = '+' then digitsVal s else digitsVal (c :: s)
  | _ => 0

/-- `f64_from_parts` for negative exponents: divide by at most `1e308` at a time. `fuel` bounds the number
of divisions. -/
def divide : (fuel : Nat) → (f : Nat × Int) → (k : Nat) → Nat × Int
  | 0, f, _ => f
  | fuel + 1, f, k =>
    let p := nearest (10 ^ min k 308) 1
    let f' := rounded f.1 p.1 (f.2 - p.2)
    if k ≤ 308 then f' else divide fuel f' (k - 308)

/-- `f64_from_parts`: the significand times the power of ten. -/
def fromParts (sig : Nat) (e : Int) : Option (Nat × Int) :=
  let f := nearest sig 1
  if e < 0 then some (divide ((-e).toNat / 308 + 1) f (-e).toNat)
  else if sig = 0 then some f
  else if e ≤ 308 then
    let p := nearest (10 ^ e.toNat) 1
    let d := rounded (f.1 * p.1) 1 (f.2 + p.2)
    if d.2 ≤ 971 then some d else none
  else none

/-- The number written by a text; `none` is `NumberOutOfRange`. Integer digits that do not fit count as
zeros, fraction digits that do not fit are dropped. -/
def readFloat (lexeme : Str) : Option Double :=
  let s := if lexeme.head? = some '-' then lexeme.tail else lexeme
  let ds := s.takeWhile isDigit
  let r := s.dropWhile isDigit
  let p := accumulate 0 ds
  let fs := if r.head? = some '.' then r.tail.takeWhile isDigit else []
  let r' := if r.head? = some '.' then r.tail.dropWhile isDigit else r
  let q := accumulate p.1 fs
  (fromParts q.1 (exponent r' + (ds.length - p.2 : Nat) - (q.2 : Int))).map fun d =>
    ⟨lexeme.head? = some '-', d.1, d.2⟩

/-! ### Writing (`ryu`) -/

/-- Whether `D * 10^k` is rounded to `m * 2^e`. -/
def denotes (D : Nat) (k : Int) (m : Nat) (e : Int) : Bool :=
  nearest (D * 10 ^ k.toNat) (10 ^ (-k).toNat) == (m, e)

/-- The multiple of `10^k` closest to `m * 2^e` among those that are rounded to it, as factor. -/
def decimalAt (m : Nat) (e k : Int) : Option Nat :=
  let a := m * 2 ^ e.toNat * 10 ^ (-k).toNat
  let b := 2 ^ (-e).toNat * 10 ^ k.toNat
  let D := a / b
  let r := 2 * (a % b)
  if denotes D k m e && (r < b || (r == b && D % 2 == 0) || !denotes (D + 1) k m e) then some D
  else if denotes (D + 1) k m e then some (D + 1)
  else none

/-- The largest `k < n - 1074` for which there is such a multiple, and the factor. -/
def decimalBelow (m : Nat) (e : Int) : Nat → Nat × Int
  | 0 => (0, 0)
  | n + 1 =>
    match decimalAt m e ((n : Int) - 1074) with
    | some D => (D, (n : Int) - 1074)
    | none => decimalBelow m e n

/-- The digits of `D * 10^k` with decimal point and exponent as `ryu::Buffer::format_finite` places them. -/
def layout (ds : Str) (k : Int) : Str :=
  let kk := (ds.length : Int) + k
  if 0 ≤ k ∧ kk ≤ 16 then ds ++ List.replicate k.toNat '0' ++ str! ".0"
  else if 0 < kk ∧ kk ≤ 16 then ds.take kk.toNat ++ '.' :: ds.drop kk.toNat
  else if -5 < kk ∧ kk ≤ 0 then str! "0." ++ List.replicate (-kk).toNat '0' ++ ds
  else if ds.length = 1 then ds ++ 'e' :: printInt (kk - 1)
  else ds.take 1 ++ '.' :: (ds.drop 1 ++ 'e' :: printInt (kk - 1))

/-- The text of a number (`serde_json::to_string`, `ryu`): the shortest decimal that is rounded to it. -/
def printFloat (d : Double) : Str :=
  (if d.neg then ['-'] else []) ++
    if d.mant = 0 then str! "0.0"
    else
      let p := decimalBelow d.mant d.exp 1384
      layout (natDigits p.1) p.2

end Json

end Oid4vci
