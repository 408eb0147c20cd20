import Mathlib.Data.List.Basic
import Verif.Base.Str

/-! Unicode letter case, as far as `str::to_lowercase` and `str::to_uppercase` are concerned. The full
mappings of UnicodeData.txt and SpecialCasing.txt send a character to a string, which may depend on
the context (final sigma); the facts below are those of the tables. -/

namespace Oid4vci.Spec

/-- `t` is `s` with each character replaced by one of its images. -/
def Mapped (image : Char → Str → Prop) (s t : Str) : Prop :=
  ∃ ps : List Str, List.Forall₂ image s ps ∧ t = ps.flatten

/-- The lower-case mapping: ASCII characters have the ASCII image; of all others only U+212A (Kelvin
sign) has an image made of ASCII characters, `k`. -/
structure LowerCase (image : Char → Str → Prop) : Prop where
  upper : ∀ n : Fin 26, ∀ p, image (Char.ofNat (65 + n.1)) p ↔ p = [Char.ofNat (97 + n.1)]
  ascii : ∀ c : Char, c.toNat < 128 → ¬ (65 ≤ c.toNat ∧ c.toNat ≤ 90) → ∀ p, image c p ↔ p = [c]
  kelvin : ∀ p, image (Char.ofNat 0x212A) p → p = ['k']
  other : ∀ c : Char, 128 ≤ c.toNat → c ≠ Char.ofNat 0x212A → ∀ p, image c p → ∃ d ∈ p, 128 ≤ d.toNat

/-- The upper-case mapping: ASCII characters have the ASCII image; every image of another character
has a character outside ASCII or is one of `I`, `S`, `SS`, `FF`, `FI`, `FL`, `FFI`, `FFL`, `ST`
(dotless i, long s, sharp s and the Latin ligatures). -/
structure UpperCase (image : Char → Str → Prop) : Prop where
  lower : ∀ n : Fin 26, ∀ p, image (Char.ofNat (97 + n.1)) p ↔ p = [Char.ofNat (65 + n.1)]
  ascii : ∀ c : Char, c.toNat < 128 → ¬ (97 ≤ c.toNat ∧ c.toNat ≤ 122) → ∀ p, image c p ↔ p = [c]
  other : ∀ c : Char, 128 ≤ c.toNat → ∀ p, image c p → (∃ d ∈ p, 128 ≤ d.toNat) ∨
    p ∈ [str! "I", str! "S", str! "SS", str! "FF", str! "FI", str! "FL", str! "FFI", str! "FFL",
      str! "ST"]

end Oid4vci.Spec
