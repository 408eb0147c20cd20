import Verif.Spec.Jwt
import Verif.Spec.Offer

/-! Specification of credential request evaluation. -/

namespace Oid4vci.Spec

/-- The nonce settings in the options. -/
def nonceOptions : Option EvaluateCredentialRequestOptions → Option CNonceOptions
  | some o => o.cNonce
  | none => none

/-- The client id in the options. -/
def clientId : Option EvaluateCredentialRequestOptions → Option Str
  | some o => o.clientId
  | none => none

/-- The last instant at which a nonce may be used. -/
def nonceExpiry (c : CNonceOptions) : Time := c.cNonceCreatedAt + c.cNonceExpiresIn.toNat * 1000000000

/-- The offer lists the pre-authorized flow only. -/
def PurelyPreAuthorized (o : CredentialOffer) : Prop :=
  o.grants.preAuthorizedCodeFlow ≠ none ∧ o.grants.authorizedCodeFlow = none

/-- The bytes of a key: the public key of an OKP key, or the x coordinate of an EC key which says
that its algorithm is EdDSA. -/
def KeyBytes (k : Jwk) (b : Bytes) : Prop :=
  k.params = .okp b ∨ (k.params = .ec (some b) ∧ k.algorithm = some ⟨str! "EdDSA"⟩)

/-- The header names a key by DID URL, and the DID document has that key. -/
def KeyResolved (x : Ext) (h : ProofJwtHeader) (doc : Option x.Doc) (did : Str) (key : Bytes) : Prop :=
  ∃ kid url d vm jwk, h.additionalHeader = some (.keyId kid) ∧ x.didUrl kid = .ok url ∧
    url.did = did ∧ doc = some d ∧ x.select d url = .verificationMethod vm ∧
    x.getJwk vm = .ok jwk ∧ KeyBytes jwk key

/-- The request carries this JWT, of the right type, for the expected nonce in its lifetime, this
issuer, and the configured client. -/
structure Bound (x : Ext) (now : Time) (m : CredentialIssuerMetadata) (r : CredentialRequest)
    (offer : CredentialOffer) (options : Option EvaluateCredentialRequestOptions) (jwt : ProofJwt) :
    Prop where
  proof : ∃ p, r.proof = some p ∧ ProofJwt.fromStr x p.jwt = .ok jwt
  typ : EqFold jwt.header.typ proofTyp
  nonce : ∃ c, nonceOptions options = some c ∧ jwt.body.nonce = c.expectedCNonce ∧
    now ≤ nonceExpiry c ∧ nonceExpiry c ≤ Time.max
  aud : jwt.body.audience = m.credentialIssuer
  iss : clientId options ≠ none ∨ ¬ PurelyPreAuthorized offer → jwt.body.issuer = clientId options

end Oid4vci.Spec
