import Verif.Base.Utf8

/-!
Percent-encoding as done by `urlencoding::encode` (crate urlencoding 2.1.2), called at
credential_issuer/mod.rs:244.
-/

namespace Oid4vci

/-- Bytes that `urlencoding` leaves unchanged: `0-9 A-Z a-z - . _ ~`. -/
def isUnreserved (n : Nat) : Bool :=
  (48 ≤ n && n ≤ 57) || (65 ≤ n && n ≤ 90) || (97 ≤ n && n ≤ 122) ||
  n == 45 || n == 46 || n == 95 || n == 126

/-- Upper-case hexadecimal digit. -/
def hexUpper (n : Nat) : Char := if n < 10 then Char.ofNat (48 + n) else Char.ofNat (55 + n)

/-- Encoding of one byte. -/
def percentByte (b : UInt8) : Str :=
  if isUnreserved b.toNat then [Char.ofNat b.toNat]
  else ['%', hexUpper (b.toNat / 16), hexUpper (b.toNat % 16)]

/-- credential_issuer/mod.rs:244 `urlencoding::encode(&s).into_owned()`. -/
def urlencode (s : Str) : Str := (utf8Encode s).flatMap percentByte

end Oid4vci
