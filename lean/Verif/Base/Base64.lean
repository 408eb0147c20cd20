import Verif.Base.Str

/-!
The base64 engines behind `base.rs`: `general_purpose::URL_SAFE_NO_PAD` (base.rs:25-44) and
`general_purpose::STANDARD` (base.rs:2-22) of the `base64` crate 0.21.0. Decoding rejects symbols
outside the alphabet, impossible lengths and non-zero trailing bits; the URL-safe engine rejects
padding, the standard engine requires canonical padding.
-/

namespace Oid4vci
namespace Base64

/-- A base64 alphabet: the characters for the values 62 and 63. -/
structure Alphabet where
  c62 : Char
  c63 : Char

/-- The URL-safe alphabet. -/
def urlSafe : Alphabet := ⟨'-', '_'⟩
/-- The standard alphabet. -/
def standard : Alphabet := ⟨'+', '/'⟩

/-- The character for a 6-bit value. -/
def encSym (a : Alphabet) (n : Nat) : Char :=
  if n < 26 then Char.ofNat (65 + n)
  else if n < 52 then Char.ofNat (97 + (n - 26))
  else if n < 62 then Char.ofNat (48 + (n - 52))
  else if n = 62 then a.c62 else a.c63

/-- The 6-bit value of a character, if it is in the alphabet. -/
def decSym (a : Alphabet) (c : Char) : Option Nat :=
  if 65 ≤ c.toNat ∧ c.toNat ≤ 90 then some (c.toNat - 65)
  else if 97 ≤ c.toNat ∧ c.toNat ≤ 122 then some (c.toNat - 97 + 26)
  else if 48 ≤ c.toNat ∧ c.toNat ≤ 57 then some (c.toNat - 48 + 52)
  else if c = a.c62 then some 62
  else if c = a.c63 then some 63
  else none

/-- Unpadded encoding. -/
def encode (a : Alphabet) : Bytes → Str
  | b0 :: b1 :: b2 :: rest =>
    encSym a (b0.toNat / 4) :: encSym a (b0.toNat % 4 * 16 + b1.toNat / 16)
      :: encSym a (b1.toNat % 16 * 4 + b2.toNat / 64) :: encSym a (b2.toNat % 64) :: encode a rest
  | [b0, b1] =>
    [encSym a (b0.toNat / 4), encSym a (b0.toNat % 4 * 16 + b1.toNat / 16),
     encSym a (b1.toNat % 16 * 4)]
  | [b0] => [encSym a (b0.toNat / 4), encSym a (b0.toNat % 4 * 16)]
  | [] => []

/-- Unpadded decoding; the final partial group must have zero trailing bits. -/
def decode (a : Alphabet) : Str → Option Bytes
  | c0 :: c1 :: c2 :: c3 :: rest => do
    let n0 ← decSym a c0
    let n1 ← decSym a c1
    let n2 ← decSym a c2
    let n3 ← decSym a c3
    let r ← decode a rest
    some (UInt8.ofNat (n0 * 4 + n1 / 16) :: UInt8.ofNat (n1 % 16 * 16 + n2 / 4)
      :: UInt8.ofNat (n2 % 4 * 64 + n3) :: r)
  | [c0, c1, c2] => do
    let n0 ← decSym a c0
    let n1 ← decSym a c1
    let n2 ← decSym a c2
    if n2 % 4 = 0 then some [UInt8.ofNat (n0 * 4 + n1 / 16), UInt8.ofNat (n1 % 16 * 16 + n2 / 4)]
    else none
  | [c0, c1] => do
    let n0 ← decSym a c0
    let n1 ← decSym a c1
    if n1 % 16 = 0 then some [UInt8.ofNat (n0 * 4 + n1 / 16)] else none
  | [_] => none
  | [] => some []

end Base64

/-- base.rs:38-43 `base64url::encode`. -/
def base64urlEncode (b : Bytes) : Str := Base64.encode Base64.urlSafe b

/-- base.rs:29-34 `base64url::decode`. The decode error is described by `none`; its message is a
function of the input (`Ext.base64Msg`). The Rust function decodes the bytes of the string; a
non-ASCII character is outside the alphabet in both views. -/
def base64urlDecode (s : Str) : Option Bytes := Base64.decode Base64.urlSafe s

/-- base.rs:15-20 `base64::encode`: standard alphabet with canonical `=` padding. -/
def base64Encode (b : Bytes) : Str :=
  Base64.encode Base64.standard b ++ List.replicate ((3 - b.length % 3) % 3) '='

/-- base.rs:6-11 `base64::decode`: standard alphabet; the length must be a multiple of four and the
padding canonical. -/
def base64Decode (s : Str) : Option Bytes :=
  if s.length % 4 ≠ 0 then none
  else
    let body := s.takeWhile (· ≠ '=')
    if s = body ++ List.replicate ((4 - body.length % 4) % 4) '='
    then Base64.decode Base64.standard body
    else none

end Oid4vci
