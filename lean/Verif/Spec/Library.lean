import Verif.Model.Library
import Verif.Spec.Asked
import Verif.Spec.Evaluate
import Verif.Spec.Instant
import Verif.Spec.JwtText
import Verif.Spec.Method

/-! Which credential requests are accepted, in terms of the texts that are sent. -/

namespace Oid4vci.Spec

/-- A string with a date-time. -/
def InstantDoc (v : Json) (t : Time) : Prop := ∃ s, v = .str s ∧ InstantText s t

/-- The claims of a key proof. -/
def WireBody (v : Json) (b : ProofJwtBody) : Prop :=
  ∃ iss aud sub iat nonce nbf exp, Slots claimNames v [iss, aud, sub, iat, nonce, nbf, exp] ∧
    Optional IsText iss b.issuer ∧ Required IsText aud b.audience ∧ Optional IsText sub b.subject ∧
    Required InstantDoc iat b.issuedAt ∧ Required IsText nonce b.nonce ∧
    Optional InstantDoc nbf b.notBefore ∧ Optional InstantDoc exp b.expiresAt

/-- The text of a key proof: base64url of the JSON of the header, of the JSON of the claims, and further segments. -/
def WireJwt (j : ProofJwt) (s : Str) : Prop :=
  ∃ header body rest, (∀ p ∈ header :: body :: rest, NoDot p) ∧ s = dotted (header :: body :: rest) ∧
    SegmentOf HeaderDoc j.header header ∧
    (∃ b v, IsBase64url b body ∧ LooseText claimNames v b ∧ WireBody v j.body) ∧ j.signature = rest.head?

/-- A key proof whose texts have no dot: neither the strings, nor the instants, which are at whole seconds. -/
def Dotless (j : ProofJwt) : Prop :=
  HeaderDotFree j.header ∧ (∀ s ∈ j.body.issuer, NoDot s) ∧ NoDot j.body.audience ∧ (∀ s ∈ j.body.subject, NoDot s) ∧
    NoDot j.body.nonce ∧ j.body.issuedAt % 1000000000 = 0 ∧ (∀ t ∈ j.body.notBefore, t % 1000000000 = 0) ∧
    ∀ t ∈ j.body.expiresAt, t % 1000000000 = 0

/-- The request with this text is to be accepted, for the holder `did` of the key. -/
structure WireAccepted (L : LibraryRules) (now : Time) (m : CredentialIssuerMetadata) (text : Str) (offer : CredentialOffer)
    (d : Document MethodMap) (options : Option EvaluateCredentialRequestOptions) (did : Str) (key : Bytes)
    (r : CredentialRequest) (jwt : ProofJwt) : Prop where
  /-- the text describes the request -/
  request : SeenOf requestAsks RequestDoc r text
  /-- its proof is the text of the JWT -/
  proof : ∃ p, r.proof = some p ∧ WireJwt jwt p.jwt
  typ : EqFold jwt.header.typ proofTyp
  /-- which answers the expected nonce in its lifetime -/
  nonce : ∃ c, nonceOptions options = some c ∧ jwt.body.nonce = c.expectedCNonce ∧ now ≤ nonceExpiry c ∧
    nonceExpiry c ≤ Time.max
  aud : jwt.body.audience = m.credentialIssuer
  iss : clientId options ≠ none ∨ ¬ PurelyPreAuthorized offer → jwt.body.issuer = clientId options
  /-- and names a key of the document by a DID URL of this DID -/
  key : ∃ kid vm a k, jwt.header.additionalHeader = some (.keyId kid) ∧ str! "did:" <+: kid ∧ UpToDelimiter kid did ∧
    FirstMethod L.select d kid vm ∧ MethodKey L.method vm a k ∧ UsedBytes a k key
  /-- there is a signature, or what the library takes for one -/
  signature : jwt.signature ≠ none ∨ ¬ Dotless jwt

end Oid4vci.Spec
