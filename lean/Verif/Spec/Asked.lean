import Verif.Spec.Seen
import Verif.Spec.Options

/-! What each document type asks for. Members of a `struct` not listed here may have any value that is
delimited; those of a `flat` one are asked for, too. -/

namespace Oid4vci.Spec

/-- Plain members. -/
def plain (names : List Str) : List (Str × Shape) := names.map fun k => (k, .any)

/-- A credential offer (section 4.1.1): the grants are looked into. -/
def offerAsks : Shape :=
  .struct [(str! "credential_issuer", .any), (str! "credentials", .vec .any),
    (str! "grants", .struct
      [(str! "authorization_code", .struct (plain [str! "issuer_state"])),
       (str! "urn:ietf:params:oauth:grant-type:pre-authorized_code",
         .struct (plain [str! "pre-authorized_code", str! "user_pin_required"]))])]

/-- A token request (section 6.1, as the code nests it). -/
def tokenRequestAsks : Shape := .struct (plain [str! "grant_type"])

/-- A token response (section 6.2). -/
def tokenResponseAsks : Shape :=
  .struct (plain [str! "access_token", str! "token_type", str! "expires_in", str! "scope", str! "c_nonce",
    str! "c_nonce_expires_in", str! "authorization_pending", str! "interval"])

/-- A credential request (section 7.2): everything but the proof belongs to the credential. -/
def requestAsks : Shape := .flat [(str! "proof", .struct (plain [str! "proof_type", str! "jwt"]))]

/-- A credential response (section 7.3). -/
def responseAsks : Shape :=
  .struct (plain [str! "format", str! "credential", str! "acceptance_token", str! "c_nonce",
    str! "c_nonce_expires_in"])

/-- Issuer metadata (section 10.2.2): further members are kept. -/
def metadataAsks : Shape :=
  .flat (plain [str! "credential_issuer", str! "authorization_server", str! "credential_endpoint",
      str! "batch_credential_endpoint"] ++
    [(str! "credentials_supported", .vec (.flat
      (plain [str! "id", str! "cryptographic_binding_mehtods_supported", str! "cryptographic_suites_supported"] ++
      [(str! "display", .vec (.struct [(str! "name", .any), (str! "locale", .any),
        (str! "logo", .struct (plain [str! "url", str! "alt_text"])), (str! "description", .any),
        (str! "background_color", .any), (str! "text_color", .any)]))])))])

/-- Settings for credential requests. -/
def requestSettingsAsks : Shape :=
  .struct [(str! "c_nonce", .struct (plain [str! "c_nonce_expires_in", str! "expected_c_nonce",
    str! "c_nonce_created_at"])), (str! "client_id", .any)]

/-- Settings for token requests. -/
def tokenSettingsAsks : Shape := .struct (plain [str! "expected_user_pin"])

/-- A fresh nonce. -/
def nonceAsks : Shape := .struct (plain [str! "c_nonce", str! "c_nonce_expires_in"])

/-- Authorization server metadata: nothing at all. -/
def serverAsks : Shape := .struct []

/-- A proof JWT as a plain document. The header keeps further members, one of them may be the key. -/
def jwtAsks : Shape :=
  .struct [(str! "header", .flat (plain [str! "typ", str! "alg"])), (str! "body", .struct (plain claimNames)),
    (str! "signature", .any)]

/-- A text in which a reader that looks at what `σ` asks for sees a description of `a`; of what it looks at it
refuses more than 127 levels. -/
def SeenOf {α : Type} (σ : Shape) (Doc : Json → α → Prop) (a : α) (s : Str) : Prop :=
  ∃ v, SeenText σ v s ∧ depth v ≤ 127 ∧ Doc v a

/-- A text of RFC 8259, without regard to what its strings and numbers denote. -/
def Grammatical (s : Str) : Prop := ∃ w t w', Ws w ∧ SkippedValue t ∧ Ws w' ∧ s = w ++ t ++ w'

/-- A member `k` whose value nobody reads, at the front of an object which goes on with `rest`. -/
structure Further (k : Str) (member rest : Str) : Prop where
  member : ∃ n w w' t, StringText k n ∧ Ws w ∧ Ws w' ∧ SkippedValue t ∧ member = n ++ w ++ ':' :: (w' ++ t)
  rest : ∃ w r, Ws w ∧ rest = w ++ '"' :: r

end Oid4vci.Spec
