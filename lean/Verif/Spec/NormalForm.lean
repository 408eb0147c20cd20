import Verif.Spec.Url

/-! Percent-encoding normalised as in RFC 3986 section 6.2.2: upper-case hexadecimal digits, and no triplet for an
unreserved character. -/

namespace Oid4vci.Spec

/-- A normalised payload. -/
inductive NormalForm : Str → Prop where
  | nil : NormalForm []
  | char {c : Char} {s : Str} : Unreserved c → NormalForm s → NormalForm (c :: s)
  | triplet {h l : Char} {a b : Nat} {s : Str} : UpperHex h → UpperHex l → hexDigit h = some a → hexDigit l = some b →
      (∀ c, Unreserved c → c.toNat ≠ 16 * a + b) → NormalForm s → NormalForm ('%' :: h :: l :: s)

/-- The number of octets that stand for unreserved characters. -/
def unreservedOctets (b : Bytes) : Nat := b.countP fun o => decide (∃ c ∈ str!
  "ABCDEFGHIJKLMNOPQRSTUVWXYZabcdefghijklmnopqrstuvwxyz0123456789-._~", c.toNat = o.toNat)

end Oid4vci.Spec
