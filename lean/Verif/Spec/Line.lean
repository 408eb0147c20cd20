import Verif.Base.Str

/-! Lines of text. -/

namespace Oid4vci.Spec

/-- Text without control characters, line breaks among them. -/
def OneLine (s : Str) : Prop := ∀ c ∈ s, 0x20 ≤ c.toNat

/-- Texts in a stream, each with a line feed behind it. -/
def stream (texts : List Str) : Str := texts.flatMap fun t => t ++ ['\n']

end Oid4vci.Spec
