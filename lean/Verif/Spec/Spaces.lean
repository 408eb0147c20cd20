import Verif.Base.Str

/-! White space between the tokens of a JSON text. -/

namespace Oid4vci.Spec

/-- The text without the white space outside of its strings; `inside` tells whether it begins inside of one. -/
def dense : (inside : Bool) → Str → Str
  | _, [] => []
  | true, '\\' :: c :: s => '\\' :: c :: dense true s
  | true, c :: s => c :: dense (c != '"') s
  | false, c :: s => if c ∈ [' ', '\t', '\n', '\r'] then dense false s else c :: dense (c == '"') s

/-- The texts differ in white space outside of strings only. -/
def SpacedAlike (s s' : Str) : Prop := dense false s = dense false s'

end Oid4vci.Spec
