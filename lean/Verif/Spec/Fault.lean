import Verif.Spec.Base64
import Verif.Model.Engine

/-!
What can be wrong with a base64 text, and how it is reported: which byte, at which offset. The text is taken as bytes;
offsets count bytes from 0.
-/

namespace Oid4vci.Spec
open Base64 (DecodeError)

/-- The byte of the digit `d` in an alphabet. -/
def symbol (alphabet : Str) (d : Fin 64) : UInt8 := UInt8.ofNat (alphabet[d.1]!).toNat

/-- A byte of the alphabet. -/
def IsSymbol (alphabet : Str) (b : UInt8) : Prop := ∃ d, b = symbol alphabet d

/-- The sign `=`. -/
def equals : UInt8 := 61

/-- `k` signs `=` after `n` symbols stay in the group of four, and two or three symbols of the group stand before
them. -/
def InPlace (n k : Nat) : Prop := k = 0 ∨ (2 ≤ n % 4 ∧ n % 4 + k ≤ 4)

/-- Whether the signs are what the variant asks for: none, or those that complete the last group. -/
def Permitted (padded : Bool) (n k : Nat) : Prop :=
  match padded with
  | false => k = 0
  | true => (n + k) % 4 = 0

/-- Bits of the last symbol are left over and not zero: `n` symbols, the last with the value `d`. -/
def TrailingBits (n d : Nat) : Prop := (n % 4 = 2 ∧ d % 16 ≠ 0) ∨ (n % 4 = 3 ∧ d % 4 ≠ 0)

/-- A fault of a text and its report. -/
inductive DecodeFault (alphabet : Str) (padded : Bool) (s : Bytes) : DecodeError → Prop
  /-- A single symbol is left over. -/
  | length : s.length % 4 = 1 → (∀ b, s.getLast? = some b → IsSymbol alphabet b ∨ b = equals) →
      DecodeFault alphabet padded s .invalidLength
  /-- A single byte is left over, and it is foreign. -/
  | lastByte (b : UInt8) : s.length % 4 = 1 → s.getLast? = some b → ¬ IsSymbol alphabet b → b ≠ equals →
      DecodeFault alphabet padded s (.invalidByte (s.length - 1) b)
  /-- The first foreign byte; signs `=` at the end, where they may stand, are no foreign bytes. -/
  | foreign (before : Bytes) (b : UInt8) (after : Bytes) : s.length % 4 ≠ 1 → s = before ++ b :: after →
      (∀ c ∈ before, IsSymbol alphabet c) → ¬ IsSymbol alphabet b →
      (¬ ∃ k, b :: after = List.replicate k equals ∧ InPlace before.length k) →
      DecodeFault alphabet padded s (.invalidByte before.length b)
  /-- Signs `=` in a place where they may stand, but too many or too few. -/
  | padding (before : Bytes) (k : Nat) : s.length % 4 ≠ 1 → s = before ++ List.replicate k equals →
      (∀ c ∈ before, IsSymbol alphabet c) → InPlace before.length k → ¬ Permitted padded before.length k →
      DecodeFault alphabet padded s .invalidPadding
  /-- The last symbol has bits that belong to no byte. -/
  | trailing (before : Bytes) (d : Fin 64) (k : Nat) : s.length % 4 ≠ 1 →
      s = before ++ symbol alphabet d :: List.replicate k equals → (∀ c ∈ before, IsSymbol alphabet c) →
      InPlace (before.length + 1) k → Permitted padded (before.length + 1) k →
      TrailingBits (before.length + 1) d.1 →
      DecodeFault alphabet padded s (.invalidLastSymbol before.length (symbol alphabet d))

end Oid4vci.Spec
