import Verif.Base.Base64
import Verif.Base.Utf8
import Verif.Base.Res
import Verif.Base.Json
import Verif.Model.Ext

/-!
Decoding in the general-purpose engine of base64 0.21.0 (the version in Cargo.lock), with its errors: the engines
behind base.rs:2-44, whose errors become the messages of validate.rs:22-28. base64 is not part of the
repository; this module describes `decode_helper` and `decode_suffix` (engine/general_purpose), which work on
bytes in blocks of eight, and the `Display` of `DecodeError`. The main model has the outcome only (`Base64.decode`);
`Props/Engine.lean` proves that it is the same.
-/

namespace Oid4vci
namespace Base64

/-- `base64::DecodeError` of version 0.21.0. -/
inductive DecodeError where
  | invalidByte (offset : Nat) (byte : UInt8)
  | invalidLength
  | invalidLastSymbol (offset : Nat) (byte : UInt8)
  | invalidPadding
deriving DecidableEq, Repr

/-- `DecodeError: Display`. -/
def DecodeError.message : DecodeError → Str
  | .invalidByte i b => str! "Invalid byte " ++ Json.printInt b.toNat ++ str! ", offset " ++ Json.printInt i ++ ['.']
  | .invalidLength => str! "Encoded text cannot have a 6-bit remainder."
  | .invalidLastSymbol i b =>
    str! "Invalid last symbol " ++ Json.printInt b.toNat ++ str! ", offset " ++ Json.printInt i ++ ['.']
  | .invalidPadding => str! "Invalid padding"

/-- `DecodePaddingMode`: `URL_SAFE_NO_PAD` permits none, `STANDARD` requires it canonical. -/
inductive PaddingMode where
  | requireNone
  | requireCanonical
deriving DecidableEq, Repr

/-- `PAD_BYTE`, `=`. -/
def pad : UInt8 := 61

/-- The decode table of an alphabet. -/
def table (a : Alphabet) (b : UInt8) : Option Nat := decSym a (Char.ofNat b.toNat)

/-- The first `n` bytes of a `u64`, most significant first. -/
def beBytes (v : Nat) : Nat → Bytes
  | 0 => []
  | n + 1 => beBytes v n ++ [UInt8.ofNat (v / 2 ^ (56 - 8 * n))]

/-- `decode_chunk`, the bits of the symbols from the left of a `u64`; `k` symbols are in already. -/
def chunkBits (a : Alphabet) (offset k : Nat) (bits : Nat) : Bytes → Res DecodeError Nat
  | [] => .ok bits
  | b :: rest =>
    match table a b with
    | none => .err (.invalidByte (offset + k) b)
    | some m => chunkBits a offset (k + 1) (bits + m * 2 ^ (58 - 6 * k)) rest

/-- `decode_chunk`: eight symbols to six bytes. -/
def chunk (a : Alphabet) (offset : Nat) (s : Bytes) : Res DecodeError Bytes :=
  match chunkBits a offset 0 0 s with
  | .ok v => .ok (beBytes v 6)
  | .err e => .err e
  | .panic => .panic

/-- The variables of the loop of `decode_suffix`. -/
structure Leftover where
  bits : Nat
  morsels : Nat
  padding : Nat
  firstPadding : Nat
  lastSymbol : UInt8
deriving DecidableEq, Repr

/-- The loop of `decode_suffix`, at position `i` of the leftovers. -/
def suffixLoop (a : Alphabet) (start : Nat) : Nat → Leftover → Bytes → Res DecodeError Leftover
  | _, v, [] => .ok v
  | i, v, b :: rest =>
    if b = pad then
      if i % 4 < 2 then .err (.invalidByte (start + if 0 < v.padding then v.firstPadding else i) b)
      else suffixLoop a start (i + 1)
        { v with firstPadding := if v.padding = 0 then i else v.firstPadding, padding := v.padding + 1 } rest
    else if 0 < v.padding then .err (.invalidByte (start + v.firstPadding) pad)
    else
      match table a b with
      | none => .err (.invalidByte (start + i) b)
      | some m => suffixLoop a start (i + 1)
        { v with bits := v.bits + m * 2 ^ (58 - 6 * v.morsels), morsels := v.morsels + 1, lastSymbol := b } rest

/-- `leftover_bits_ready_to_append`, in bytes; the other numbers of symbols are `unreachable!`. -/
def readyBytes : Nat → Option Nat
  | 0 => some 0
  | 2 => some 1
  | 3 => some 2
  | 4 => some 3
  | 6 => some 4
  | 7 => some 5
  | 8 => some 6
  | _ => none

/-- The check of the padding mode. -/
def paddingOk : PaddingMode → Leftover → Bool
  | .requireNone, v => v.padding = 0
  | .requireCanonical, v => (v.padding + v.morsels) % 4 = 0

/-- `decode_suffix`: the last block of up to eight symbols. Trailing bits must be zero
(`decode_allow_trailing_bits` is off in both engines). -/
def suffix (a : Alphabet) (mode : PaddingMode) (start : Nat) (s : Bytes) : Res DecodeError Bytes :=
  match suffixLoop a start 0 ⟨0, 0, 0, 0, 0⟩ s with
  | .err e => .err e
  | .panic => .panic
  | .ok v =>
    if paddingOk mode v then
      match readyBytes v.morsels with
      | none => .panic
      | some n =>
        if v.bits % 2 ^ (64 - 8 * n) = 0 then .ok (beBytes v.bits n)
        else .err (.invalidLastSymbol (start + v.morsels - 1) v.lastSymbol)
    else .err .invalidPadding

/-- The blocks of eight before the last one, then the last one. -/
def blocks (a : Alphabet) (mode : PaddingMode) : Nat → Bytes → Res DecodeError Bytes
  | start, b0 :: b1 :: b2 :: b3 :: b4 :: b5 :: b6 :: b7 :: b8 :: rest =>
    match chunk a start [b0, b1, b2, b3, b4, b5, b6, b7] with
    | .err e => .err e
    | .panic => .panic
    | .ok c =>
      match blocks a mode (start + 8) (b8 :: rest) with
      | .err e => .err e
      | .panic => .panic
      | .ok r => .ok (c ++ r)
  | start, s => suffix a mode start s

/-- `decode_helper`. Of a text of impossible length the last byte is looked at first. -/
def engine (a : Alphabet) (mode : PaddingMode) (s : Bytes) : Res DecodeError Bytes :=
  if s.length % 4 = 1 then
    match s.getLast? with
    | some b => if b ≠ pad ∧ table a b = none then .err (.invalidByte (s.length - 1) b) else .err .invalidLength
    | none => .err .invalidLength
  else blocks a mode 0 s

/-- base.rs:29-34 `base64url::decode`, on the bytes of a string. -/
def urlEngine (s : Str) : Res DecodeError Bytes := engine urlSafe .requireNone (utf8Encode s)

/-- base.rs:6-11 `base64::decode`, on the bytes of a string. -/
def standardEngine (s : Str) : Res DecodeError Bytes := engine standard .requireCanonical (utf8Encode s)

end Base64

/-- The externals with the messages of base64 errors (validate.rs:22-28); a text without error has none, and the
message for it is not used. -/
def withBase64 (x : Ext) : Ext :=
  { x with base64Msg := fun s =>
      match Base64.urlEngine s with
      | .err e => e.message
      | _ => [] }

end Oid4vci
