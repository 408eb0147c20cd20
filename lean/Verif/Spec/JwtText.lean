import Verif.Spec.Documents
import Verif.Spec.JsonText
import Verif.Spec.Utf8
import Verif.Spec.Loose

/-! The text of a proof JWT (RFC 7515 section 3.1, RFC 7519), down to the characters. -/

namespace Oid4vci.Spec

/-- The body of a proof JWT. -/
def BodyDoc (x : Ext) (v : Json) (b : ProofJwtBody) : Prop :=
  ∃ iss aud sub iat nonce nbf exp, Slots claimNames v [iss, aud, sub, iat, nonce, nbf, exp] ∧
    Optional IsText iss b.issuer ∧ Required IsText aud b.audience ∧ Optional IsText sub b.subject ∧
    Required (IsInstant x) iat b.issuedAt ∧ Required IsText nonce b.nonce ∧
    Optional (IsInstant x) nbf b.notBefore ∧ Optional (IsInstant x) exp b.expiresAt

/-- A JSON text which describes `a`; serde_json refuses more than 127 levels. -/
def TextOf {α : Type} (Doc : Json → α → Prop) (a : α) (s : Str) : Prop :=
  ∃ v, JsonText v s ∧ depth v ≤ 127 ∧ Doc v a

/-- A segment: base64url of the UTF-8 form of a JSON text. -/
def SegmentOf {α : Type} (Doc : Json → α → Prop) (a : α) (segment : Str) : Prop :=
  ∃ b s, IsBase64url b segment ∧ IsUtf8 s b ∧ TextOf Doc a s

/-- The second segment: base64url of a document of which only the registered claims are looked at. -/
def BodySegment (x : Ext) (body : ProofJwtBody) (segment : Str) : Prop :=
  ∃ b v, IsBase64url b segment ∧ LooseText claimNames v b ∧ BodyDoc x v body

/-- The text of a JWT: header, body and possibly further segments, separated by dots. The third segment
is the signature. -/
def JwtText (x : Ext) (j : ProofJwt) (s : Str) : Prop :=
  ∃ header body rest, (∀ p ∈ header :: body :: rest, NoDot p) ∧ s = dotted (header :: body :: rest) ∧
    SegmentOf HeaderDoc j.header header ∧ BodySegment x j.body body ∧ j.signature = rest.head?

end Oid4vci.Spec
