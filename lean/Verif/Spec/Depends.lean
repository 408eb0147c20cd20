import Verif.Spec.Evaluate

/-! What evaluation may depend on. -/

namespace Oid4vci.Spec

/-- Metadata that evaluation must not distinguish: same issuer, and both or neither with unique ids. -/
def SameIssuer (m m' : CredentialIssuerMetadata) : Prop :=
  m.credentialIssuer = m'.credentialIssuer ∧
  (DistinctIds m.credentialsSupported ↔ DistinctIds m'.credentialsSupported)

/-- Offers that credential request evaluation must not distinguish: the same flows are listed. -/
def SameFlows (o o' : CredentialOffer) : Prop :=
  (o.grants.authorizedCodeFlow = none ↔ o'.grants.authorizedCodeFlow = none) ∧
  (o.grants.preAuthorizedCodeFlow = none ↔ o'.grants.preAuthorizedCodeFlow = none)

/-- Both absent, or both present and related. -/
inductive Both {α : Type} (R : α → α → Prop) : Option α → Option α → Prop
  | none : Both R none none
  | some (a b : α) : R a b → Both R (some a) (some b)

/-- Requests that differ at most in the proof type and the requested credential. -/
def SameProof (r r' : CredentialRequest) : Prop :=
  Both (fun p p' => p.jwt = p'.jwt) r.proof r'.proof

/-- The result with another credential. -/
def withCredential (f : CredentialFormatProfile) :
    CredentialIssuerResult CredentialIssuerEvaluateRequestResponse →
    CredentialIssuerResult CredentialIssuerEvaluateRequestResponse
  | .ok r => .ok { r with credential := f }
  | .err e => .err e
  | .panic => .panic

/-- Offers that token request evaluation must not distinguish: the same pre-authorized grant, and both or
neither with an authorized grant. -/
def SameGrant (o o' : CredentialOffer) : Prop :=
  (o.grants.authorizedCodeFlow = none ↔ o'.grants.authorizedCodeFlow = none) ∧
  o.grants.preAuthorizedCodeFlow = o'.grants.preAuthorizedCodeFlow

end Oid4vci.Spec
