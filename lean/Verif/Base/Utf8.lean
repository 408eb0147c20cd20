import Verif.Base.Str

/-!
UTF-8, the encoding of Rust's `str` (`as_bytes`, jwt/mod.rs:242 and jwt/mod.rs:264) and the
encoding which `serde_json::from_slice` (jwt/mod.rs:98-99) requires.
-/

namespace Oid4vci

/-- UTF-8 encoding of one scalar value. -/
def utf8EncodeChar (c : Char) : Bytes :=
  let n := c.toNat
  if n < 0x80 then [UInt8.ofNat n]
  else if n < 0x800 then [UInt8.ofNat (0xC0 + n / 64), UInt8.ofNat (0x80 + n % 64)]
  else if n < 0x10000 then
    [UInt8.ofNat (0xE0 + n / 4096), UInt8.ofNat (0x80 + n / 64 % 64), UInt8.ofNat (0x80 + n % 64)]
  else
    [UInt8.ofNat (0xF0 + n / 262144), UInt8.ofNat (0x80 + n / 4096 % 64),
     UInt8.ofNat (0x80 + n / 64 % 64), UInt8.ofNat (0x80 + n % 64)]

/-- `str::as_bytes`. -/
def utf8Encode (s : Str) : Bytes := s.flatMap utf8EncodeChar

/-- Is `b` a continuation byte `10xxxxxx`? -/
def isCont (b : UInt8) : Bool := 0x80 ≤ b.toNat && b.toNat < 0xC0

/-- Strict UTF-8 decoding (as `core::str::from_utf8`): overlong forms, surrogates and values above
U+10FFFF are rejected. -/
def utf8Decode : Bytes → Option Str
  | [] => some []
  | b0 :: rest =>
    if b0.toNat < 0x80 then
      (utf8Decode rest).map (Char.ofNat b0.toNat :: ·)
    else if b0.toNat < 0xC0 then none
    else if b0.toNat < 0xE0 then
      match rest with
      | b1 :: rest =>
        let n := (b0.toNat - 0xC0) * 64 + (b1.toNat - 0x80)
        if isCont b1 && 0x80 ≤ n then (utf8Decode rest).map (Char.ofNat n :: ·) else none
      | _ => none
    else if b0.toNat < 0xF0 then
      match rest with
      | b1 :: b2 :: rest =>
        let n := (b0.toNat - 0xE0) * 4096 + (b1.toNat - 0x80) * 64 + (b2.toNat - 0x80)
        if isCont b1 && isCont b2 && 0x800 ≤ n && !(0xD800 ≤ n && n < 0xE000) then
          (utf8Decode rest).map (Char.ofNat n :: ·)
        else none
      | _ => none
    else if b0.toNat < 0xF8 then
      match rest with
      | b1 :: b2 :: b3 :: rest =>
        let n := (b0.toNat - 0xF0) * 262144 + (b1.toNat - 0x80) * 4096 + (b2.toNat - 0x80) * 64
          + (b3.toNat - 0x80)
        if isCont b1 && isCont b2 && isCont b3 && 0x10000 ≤ n && n < 0x110000 then
          (utf8Decode rest).map (Char.ofNat n :: ·)
        else none
      | _ => none
    else none

end Oid4vci
