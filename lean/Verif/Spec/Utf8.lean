import Mathlib.Data.List.Forall2
import Verif.Base.Str

/-! RFC 3629: UTF-8. -/

namespace Oid4vci.Spec

/-- RFC 3629 section 3: the octets of one character number. The shortest form has to be used. -/
inductive Utf8Octets : Nat → List Nat → Prop
  | one (n : Nat) : n ≤ 0x7F → Utf8Octets n [n]
  | two (a b : Nat) : a < 32 → b < 64 → 0x80 ≤ a * 64 + b → Utf8Octets (a * 64 + b) [0xC0 + a, 0x80 + b]
  | three (a b c : Nat) : a < 16 → b < 64 → c < 64 → 0x800 ≤ (a * 64 + b) * 64 + c →
      Utf8Octets ((a * 64 + b) * 64 + c) [0xE0 + a, 0x80 + b, 0x80 + c]
  | four (a b c d : Nat) : a < 8 → b < 64 → c < 64 → d < 64 → 0x10000 ≤ ((a * 64 + b) * 64 + c) * 64 + d →
      Utf8Octets (((a * 64 + b) * 64 + c) * 64 + d) [0xF0 + a, 0x80 + b, 0x80 + c, 0x80 + d]

/-- `b` is the UTF-8 form of `s`. -/
def IsUtf8 (s : Str) (b : Bytes) : Prop :=
  ∃ octets : List (List Nat), List.Forall₂ (fun c o => Utf8Octets c.toNat o) s octets ∧
    b.map UInt8.toNat = octets.flatten

end Oid4vci.Spec
