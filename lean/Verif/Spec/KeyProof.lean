import Verif.Spec.Evaluate
import Verif.Spec.JwtText

/-! A valid key proof: OpenID4VCI draft 11, sections 7.2.1 and 7.2.2, for keys in DID documents, over the text of the
token; and what the library leaves to its callers. -/

namespace Oid4vci.Spec

/-- A signature scheme: algorithm, public key, signed octets, signature. -/
abbrev Scheme := ProofJwtAlgorithm → Bytes → Bytes → Bytes → Prop

/-- Section 7.2.1.1: the algorithm "MUST NOT be `none` or an identifier for a symmetric algorithm (MAC)". -/
def Asymmetric (a : ProofJwtAlgorithm) : Prop := a ∉ [.HS256, .HS384, .HS512, .none]

/-- RFC 7519 sections 4.1.4 and 4.1.5: not before `nbf`, and before `exp`. -/
def InPeriod (b : ProofJwtBody) (now : Time) : Prop :=
  (∀ nb ∈ b.notBefore, nb ≤ now) ∧ ∀ ex ∈ b.expiresAt, now < ex

/-- The token is signed (RFC 7515 section 5.2): three segments, of which the third is the base64url form of a
signature of the first two as they stand. -/
def Signed (verifies : Scheme) (alg : ProofJwtAlgorithm) (key : Bytes) (token : Str) : Prop :=
  ∃ header body signature sig, token = dotted [header, body, signature] ∧ NoDot header ∧ NoDot body ∧
    NoDot signature ∧ IsBase64url sig signature ∧ verifies alg key (utf8Encode (header ++ '.' :: body)) sig

/-- What the issuer expects of a proof. -/
structure Expected (x : Ext) where
  /-- its own identifier -/
  issuer : Str
  /-- the nonce it handed out -/
  nonce : Str
  /-- whether the client is checked, and which one is expected -/
  client : Option (Option Str)
  /-- the DID document of the subject -/
  document : x.Doc

/-- A valid key proof. -/
def ValidKeyProof (x : Ext) (verifies : Scheme) (now : Time) (e : Expected x) (token : Str) : Prop :=
  ∃ jwt did key, JwtText x jwt token ∧ EqFold jwt.header.typ proofTyp ∧ Asymmetric jwt.header.alg ∧
    KeyResolved x jwt.header (some e.document) did key ∧ Signed verifies jwt.header.alg key token ∧
    jwt.body.audience = e.issuer ∧ jwt.body.nonce = e.nonce ∧ (∀ c, e.client = some c → jwt.body.issuer = c) ∧
    InPeriod jwt.body now

/-- The client which the evaluation checks: the configured one, unless none is configured and the offer is for the
pre-authorized flow only. -/
def checkedClient (o : CredentialOffer) (client : Option Str) : Option (Option Str) :=
  match client, o.grants.preAuthorizedCodeFlow, o.grants.authorizedCodeFlow with
  | none, some _, none => none
  | c, _, _ => some c

/-- What the library leaves to its callers, given the response of the evaluation: the algorithm, the signature of
the token as it was received, the instant of expiry, and whether the credential was offered. -/
def LeftToCaller (verifies : Scheme) (now : Time) (m : CredentialIssuerMetadata) (o : CredentialOffer) (token : Str)
    (jwt : ProofJwt) (resp : CredentialIssuerEvaluateRequestResponse) : Prop :=
  (∃ pop, resp.proofOfPossession = some pop ∧ Asymmetric pop.algorithm ∧
    Signed verifies pop.algorithm pop.publicKey token) ∧
  jwt.body.expiresAt ≠ some now ∧ ∃ c ∈ o.credentials, StandsFor m c resp.credential

/-- The four checks that the library leaves to its callers. -/
inductive Check
  | algorithm | signature | expiry | offer
  deriving DecidableEq

/-- A check has been made and was passed. -/
def Check.Done (verifies : Scheme) (now : Time) (m : CredentialIssuerMetadata) (o : CredentialOffer) (token : Str)
    (jwt : ProofJwt) (resp : CredentialIssuerEvaluateRequestResponse) : Check → Prop
  | .algorithm => ∃ pop, resp.proofOfPossession = some pop ∧ Asymmetric pop.algorithm
  | .signature => ∃ pop, resp.proofOfPossession = some pop ∧ Signed verifies pop.algorithm pop.publicKey token
  | .expiry => jwt.body.expiresAt ≠ some now
  | .offer => ∃ c ∈ o.credentials, StandsFor m c resp.credential

end Oid4vci.Spec
