import Verif.Spec.Base64

/-! Digits of JSON numbers (RFC 8259 section 6). -/

namespace Oid4vci.Spec

/-- A decimal digit and its value. -/
def digits : List (Char × Nat) :=
  [('0', 0), ('1', 1), ('2', 2), ('3', 3), ('4', 4), ('5', 5), ('6', 6), ('7', 7), ('8', 8), ('9', 9)]

/-- `s` writes the digits `ds`, each as the table says. -/
def Written (table : List (Char × Nat)) (ds : List Nat) (s : Str) : Prop :=
  ∃ ps : List (Char × Nat), (∀ p ∈ ps, p ∈ table) ∧ s = ps.map Prod.fst ∧ ds = ps.map Prod.snd

/-- Section 6, a nonempty sequence of digits. -/
def DigitsText (ds : List Nat) (s : Str) : Prop :=
  ds ≠ [] ∧ Written digits ds s

end Oid4vci.Spec
