import Verif.Spec.Offer

/-! How an issuer's metadata may change while offers are outstanding. -/

namespace Oid4vci.Spec

/-- The same issuer with at least the same supported credentials, in any order; ids stay distinct. Everything else may
differ. -/
def Extends (m m' : CredentialIssuerMetadata) : Prop :=
  m'.credentialIssuer = m.credentialIssuer ∧ (∀ c ∈ m.credentialsSupported, c ∈ m'.credentialsSupported) ∧
    DistinctIds m'.credentialsSupported

/-- The credential ids an offer mentions. -/
def Mentions (cs : CredentialOrIds) (id : Str) : Prop := .credentialId id ∈ cs

end Oid4vci.Spec
