import Verif.Model.PathError

/-! Where in a document the value is that an error is about. -/

namespace Oid4vci.Spec

/-- Where a segment leads: to an element, or to a member or variant of that name, if it is known. -/
def step : Segment → Nat ⊕ Option Str
  | .seq i => .inl i
  | .map k => .inr (some k)
  | .enum v => .inr (some v)
  | .unknown => .inr none

/-- A path of which something is known. -/
def Known (path : List Segment) : Prop := ∃ s ∈ path, s ≠ .unknown

/-- A name without the characters paths are made of. -/
def PlainName (k : Str) : Prop := k ≠ [] ∧ k ≠ ['?'] ∧ ∀ c ∈ k, c ∉ ['.', '[', ':']

/-- A path with such names. -/
def PlainPath (path : List Segment) : Prop := ∀ s ∈ path, ∀ k, step s = .inr (some k) → PlainName k

end Oid4vci.Spec
