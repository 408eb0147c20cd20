import Verif.Spec.Order
import Verif.Model.Issuer

/-!
Outcomes that are the same for the caller, and maps that can be iterated in one order only.
-/

namespace Oid4vci.Spec

/-- The same outcome: values that are related, the same error, or a panic both times. -/
def SameOutcome {ε α : Type} (R : α → α → Prop) : Res ε α → Res ε α → Prop
  | .ok a, .ok b => R a b
  | .err e, .err e' => e = e'
  | .panic, .panic => True
  | _, _ => False

/-- Equal answers to a credential request. -/
def SameAnswer (a b : CredentialIssuerEvaluateRequestResponse) : Prop :=
  a.proofOfPossession = b.proofOfPossession ∧ a.subjectId = b.subjectId ∧ SameCredential a.credential b.credential

/-- Equal arguments of the success response. -/
def SameIssue : CredentialOrAcceptanceToken → CredentialOrAcceptanceToken → Prop
  | .credential c, .credential c' => SameCredential c c'
  | .acceptanceToken t, .acceptanceToken t' => t = t'
  | _, _ => False

/-- A map with at most one entry. -/
def Single {α : Type} (m : HMap α) : Prop := m.length ≤ 1

/-- A credential whose maps have at most one entry each. -/
def SingleCredential : CredentialFormatProfile → Prop
  | .jwtVcJson _ cs _ | .jwtVcJsonLd _ cs _ | .msoMdoc _ cs _ => ∀ m ∈ cs, Single m
  | .ldpVc c _ cs _ => (∀ m, LinkedDataContext.map m ∈ c → Single m) ∧ ∀ m ∈ cs, Single m

/-- The entries of an offer whose credentials have maps with at most one entry each. -/
def SingleEntries (cs : CredentialOrIds) : Prop := ∀ c, CredentialOrId.credential c ∈ cs → SingleCredential c

end Oid4vci.Spec
