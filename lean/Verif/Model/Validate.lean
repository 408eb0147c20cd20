import Verif.Base.Str
import Verif.Base.Res

/-! validate.rs -/

namespace Oid4vci

/-- validate.rs:5-15 `ValidationError` (one variant, discriminant 1). -/
inductive ValidationError where
  | any (validationMessage : Str)
deriving DecidableEq, Repr

/-- validate.rs:18 `ValidationResult`. -/
abbrev ValidationResult (α : Type) := Res ValidationError α

end Oid4vci
