import Verif.Model.Options
import Verif.Spec.JwtText

/-! The JSON documents which the issuer's application uses for its settings. -/

namespace Oid4vci.Spec

/-- The expected nonce: its value, its lifetime in seconds and the instant of its creation. -/
def NonceSettingsDoc (x : Ext) (v : Json) (o : CNonceOptions) : Prop :=
  ∃ expires nonce created, Slots [str! "c_nonce_expires_in", str! "expected_c_nonce",
      str! "c_nonce_created_at"] v [expires, nonce, created] ∧
    Required IsU32 expires o.cNonceExpiresIn ∧ Required IsText nonce o.expectedCNonce ∧
    Required (IsInstant x) created o.cNonceCreatedAt

/-- The settings for credential requests. -/
def RequestSettingsDoc (x : Ext) (v : Json) (o : EvaluateCredentialRequestOptions) : Prop :=
  ∃ nonce client, Slots [str! "c_nonce", str! "client_id"] v [nonce, client] ∧
    Optional (NonceSettingsDoc x) nonce o.cNonce ∧ Optional IsText client o.clientId

/-- The settings for token requests. -/
def TokenSettingsDoc (v : Json) (o : EvaluateAccessTokenRequestOptions) : Prop :=
  ∃ pin, Slots [str! "expected_user_pin"] v [pin] ∧ Optional IsU64 pin o.expectedUserPin

/-- A fresh nonce. -/
def NonceDoc (v : Json) (c : CNonce) : Prop :=
  ∃ nonce expires, Slots [str! "c_nonce", str! "c_nonce_expires_in"] v [nonce, expires] ∧
    Required IsText nonce c.cNonce ∧ Optional IsU32 expires c.cNonceExpiresIn

/-- Authorization server metadata: any object, or the empty array. -/
def ServerDoc (v : Json) (_ : AuthorizationServerMetadata) : Prop := (∃ kvs, v = .obj kvs) ∨ v = .arr []

/-- A proof JWT as a plain JSON document. -/
def JwtDoc (x : Ext) (v : Json) (j : ProofJwt) : Prop :=
  ∃ header body signature, Slots [str! "header", str! "body", str! "signature"] v
      [header, body, signature] ∧
    Required HeaderDoc header j.header ∧ Required (BodyDoc x) body j.body ∧
    Optional IsText signature j.signature

end Oid4vci.Spec
