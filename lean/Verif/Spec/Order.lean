import Verif.Spec.Unique
import Verif.Model.Request

/-!
"An object is an unordered collection of zero or more name/value pairs" (RFC 8259 section 1): documents that
differ in the order of members, and values that differ in the order of `HashMap` entries.
-/

namespace Oid4vci.Spec

/-- The second document is the first one with the members of its objects, at any depth, in another order. -/
inductive Reordered : Json → Json → Prop
  | refl (j : Json) : Reordered j j
  | trans {i j k : Json} : Reordered i j → Reordered j k → Reordered i k
  | members {kvs kvs' : List (Str × Json)} : kvs.Perm kvs' → Reordered (.obj kvs) (.obj kvs')
  | element (before after : List Json) {v v' : Json} : Reordered v v' →
      Reordered (.arr (before ++ v :: after)) (.arr (before ++ v' :: after))
  | value (before after : List (Str × Json)) (k : Str) {v v' : Json} : Reordered v v' →
      Reordered (.obj (before ++ (k, v) :: after)) (.obj (before ++ (k, v') :: after))

/-- Equal maps: the order of the entries of a `HashMap` is none of its contents. -/
def SameMap {α : Type} (m m' : HMap α) : Prop := m.Perm m'

/-- Equal contexts. -/
def SameContext : LinkedDataContext → LinkedDataContext → Prop
  | .string s, .string s' => s = s'
  | .map m, .map m' => SameMap m m'
  | _, _ => False

/-- Equal credentials. -/
def SameCredential : CredentialFormatProfile → CredentialFormatProfile → Prop
  | .jwtVcJson t cs o, .jwtVcJson t' cs' o' => t = t' ∧ Option.Rel SameMap cs cs' ∧ o = o'
  | .jwtVcJsonLd t cs o, .jwtVcJsonLd t' cs' o' => t = t' ∧ Option.Rel SameMap cs cs' ∧ o = o'
  | .ldpVc c t cs o, .ldpVc c' t' cs' o' =>
    List.Forall₂ SameContext c c' ∧ t = t' ∧ Option.Rel SameMap cs cs' ∧ o = o'
  | .msoMdoc d cs o, .msoMdoc d' cs' o' => d = d' ∧ Option.Rel SameMap cs cs' ∧ o = o'
  | _, _ => False

/-- Equal entries of an offer. -/
def SameEntry : CredentialOrId → CredentialOrId → Prop
  | .credentialId s, .credentialId s' => s = s'
  | .credential c, .credential c' => SameCredential c c'
  | _, _ => False

/-- Equal offers. -/
def SameOffer (o o' : CredentialOffer) : Prop :=
  o.credentialIssuer = o'.credentialIssuer ∧ List.Forall₂ SameEntry o.credentials o'.credentials ∧
    o.grants = o'.grants

/-- Equal credential requests. -/
def SameRequest (r r' : CredentialRequest) : Prop := SameCredential r.format r'.format ∧ r.proof = r'.proof

/-- Equal descriptions of supported credentials. -/
def SameSupported (c c' : CredentialSupported) : Prop :=
  SameCredential c.format c'.format ∧ c.id = c'.id ∧
    c.cryptographicBindingMethodsSupported = c'.cryptographicBindingMethodsSupported ∧
    c.cryptographicSuitesSupported = c'.cryptographicSuitesSupported ∧ c.display = c'.display

/-- Equal metadata. -/
def SameIssuerMetadata (m m' : CredentialIssuerMetadata) : Prop :=
  m.credentialIssuer = m'.credentialIssuer ∧ m.authorizationServer = m'.authorizationServer ∧
    m.credentialEndpoint = m'.credentialEndpoint ∧ m.batchCredentialEndpoint = m'.batchCredentialEndpoint ∧
    List.Forall₂ SameSupported m.credentialsSupported m'.credentialsSupported ∧
    Option.Rel SameMap m.additionalFields m'.additionalFields

/-- Equal credentials in a response. -/
def SameIssued : CredentialFormatProfileOrEncoded → CredentialFormatProfileOrEncoded → Prop
  | .credentialFormatProfile c, .credentialFormatProfile c' => SameCredential c c'
  | .encoded s, .encoded s' => s = s'
  | _, _ => False

/-- Equal responses. -/
def SameResponse (r r' : CredentialSuccessResponse) : Prop :=
  r.format = r'.format ∧ Option.Rel SameIssued r.credential r'.credential ∧
    r.acceptanceToken = r'.acceptanceToken ∧ r.cNonce = r'.cNonce ∧ r.cNonceExpiresIn = r'.cNonceExpiresIn

end Oid4vci.Spec
