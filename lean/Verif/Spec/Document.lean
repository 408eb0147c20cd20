import Verif.Model.Document
import Verif.Spec.Did

/-! Which verification methods a DID document has. -/

namespace Oid4vci.Spec

/-- The lists of a document: its verification methods, and those for each purpose (DID Core sections 5.2 and 5.3). -/
def listsOf {VM : Type} (rules : SelectRules) (d : Document VM) : List (List (DocumentEntry VM)) :=
  [d.verificationMethod.getD [], d.authentication.getD [], d.assertionMethod.getD [], d.keyAgreement.getD [],
    d.capabilityInvocation.getD [], d.capabilityDelegation.getD [],
    if rules.publicKey then d.publicKey.getD [] else []]

/-- In this document the id stands for the key id: letter for letter or, if relative ids count, as what follows the
document's own DID. -/
def GoesBy {VM : Type} (rules : SelectRules) (d : Document VM) (kid id : Str) : Prop :=
  id = kid ∨ (rules.relative = true ∧ UpToDelimiter kid d.id ∧ kid = d.id ++ id)

/-- The document has this verification method under this key id, in one of its lists. -/
def HasMethod {VM : Type} (rules : SelectRules) (d : Document VM) (kid : Str) (vm : VM) : Prop :=
  ∃ l ∈ listsOf rules d, ∃ id, GoesBy rules d kid id ∧ .method id vm ∈ l

/-- None of these entries is a method under this key id. -/
def NoMethod {VM : Type} (rules : SelectRules) (d : Document VM) (kid : Str) (l : List (DocumentEntry VM)) : Prop :=
  ∀ id vm, .method id vm ∈ l → ¬ GoesBy rules d kid id

/-- It is the first one under this key id: none precedes it in its list, or is in an earlier list. -/
def FirstMethod {VM : Type} (rules : SelectRules) (d : Document VM) (kid : Str) (vm : VM) : Prop :=
  ∃ earlier l later before id after, listsOf rules d = earlier ++ l :: later ∧ l = before ++ .method id vm :: after ∧
    GoesBy rules d kid id ∧ (∀ l' ∈ earlier, NoMethod rules d kid l') ∧ NoMethod rules d kid before

/-- No two verification methods of the document have the same key id. -/
def UniqueMethods {VM : Type} (rules : SelectRules) (d : Document VM) : Prop :=
  ∀ kid vm vm', HasMethod rules d kid vm → HasMethod rules d kid vm' → vm = vm'

/-- All methods of the document are written with their whole ids. -/
def WholeIds {VM : Type} (rules : SelectRules) (d : Document VM) : Prop :=
  ∀ l ∈ listsOf rules d, ∀ id vm, .method id vm ∈ l → str! "did:" <+: id

end Oid4vci.Spec
