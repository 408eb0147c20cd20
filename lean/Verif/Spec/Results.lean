import Verif.Model.Options
import Verif.Spec.Report
import Verif.Spec.Json

/-! The texts in which the application hands results on. -/

namespace Oid4vci.Spec

/-- The result of a call that did not panic. -/
def outcome {ε T : Type} : Res ε T → Option (Except ε T)
  | .ok t => some (.ok t)
  | .err e => some (.error e)
  | .panic => none

/-- The JSON text of the return object of a result. -/
def resultText {ε T : Type} (information : ε → ErrorInformation) (fT : T → Json) (r : Except ε T) : Str :=
  ((toReturnObject information r).ser fT ErrorInformation.ser Json.str).print

/-- A way to write values as JSON in which every value has its own document, with numbers of `serde_json`. -/
structure Faithful {T : Type} (P : T → Prop) (f : T → Json) : Prop where
  numbers : ∀ t, P t → RustNumbers (f t)
  injective : ∀ t t', P t → P t' → f t = f t' → t = t'

/-- A list of entries made from a list of values, one for each, in order. -/
def MadeFrom {T : Type} (entry : T → CredentialOrId) (values : List T) (cs : CredentialOrIds) : Prop :=
  cs.length = values.length ∧ ∀ (i : Nat) (v : T), values[i]? = some v → cs[i]? = some (entry v)

end Oid4vci.Spec
