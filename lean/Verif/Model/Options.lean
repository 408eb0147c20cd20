import Verif.Model.AccessToken

/-!
The values which the issuer's application hands over and gets back: options, nonces, conversions into
lists of credentials, and the results of the evaluations, with their JSON forms.
-/

namespace Oid4vci

open Serde

/-! ### Options -/

/-- credential_issuer/mod.rs:394-404 derived `Serialize`. -/
def CNonceOptions.ser (x : Ext) (o : CNonceOptions) : Json :=
  .obj [(str! "c_nonce_expires_in", serU32 o.cNonceExpiresIn),
    (str! "expected_c_nonce", .str o.expectedCNonce),
    (str! "c_nonce_created_at", serTime x o.cNonceCreatedAt)]

/-- credential_issuer/mod.rs:394-404 derived `Deserialize`. -/
def CNonceOptions.de (x : Ext) (j : Json) : Option CNonceOptions :=
  match struct [str! "c_nonce_expires_in", str! "expected_c_nonce", str! "c_nonce_created_at"] j with
  | some [expires, nonce, created] => do
    let expires ← req Serde.u32 expires
    let nonce ← req Serde.string nonce
    let created ← req (deTime x) created
    some ⟨expires, nonce, created⟩
  | _ => none

/-- credential_issuer/mod.rs:394-404 derived `Deserialize`: the members it reads. -/
def CNonceOptions.shape : Shape :=
  .struct [(str! "c_nonce_expires_in", .any), (str! "expected_c_nonce", .any), (str! "c_nonce_created_at", .any)]

/-- credential_issuer/mod.rs:368-391 derived `Serialize`. -/
def EvaluateCredentialRequestOptions.ser (x : Ext) (o : EvaluateCredentialRequestOptions) : Json :=
  .obj [(str! "c_nonce", serOpt (CNonceOptions.ser x) o.cNonce),
    (str! "client_id", serOpt .str o.clientId)]

/-- credential_issuer/mod.rs:368-391 derived `Deserialize`. -/
def EvaluateCredentialRequestOptions.de (x : Ext) (j : Json) :
    Option EvaluateCredentialRequestOptions :=
  match struct [str! "c_nonce", str! "client_id"] j with
  | some [nonce, client] => do
    let nonce ← opt (CNonceOptions.de x) nonce
    let client ← opt Serde.string client
    some ⟨nonce, client⟩
  | _ => none

/-- credential_issuer/mod.rs:368-391 derived `Deserialize`: the members it reads. -/
def EvaluateCredentialRequestOptions.shape : Shape :=
  .struct [(str! "c_nonce", CNonceOptions.shape), (str! "client_id", .any)]

/-- `serde_json::from_str::<EvaluateCredentialRequestOptions>`. -/
def EvaluateCredentialRequestOptions.fromJson (x : Ext) (s : Str) : Option EvaluateCredentialRequestOptions :=
  (Json.see EvaluateCredentialRequestOptions.shape s).bind (EvaluateCredentialRequestOptions.de x)

/-- credential_issuer/mod.rs:354-365 derived `Serialize`. -/
def CNonce.ser (c : CNonce) : Json :=
  .obj [(str! "c_nonce", .str c.cNonce), (str! "c_nonce_expires_in", serOpt serU32 c.cNonceExpiresIn)]

/-- credential_issuer/mod.rs:354-365 derived `Deserialize`. -/
def CNonce.de (j : Json) : Option CNonce :=
  match struct [str! "c_nonce", str! "c_nonce_expires_in"] j with
  | some [nonce, expires] => do
    let nonce ← req Serde.string nonce
    let expires ← opt Serde.u32 expires
    some ⟨nonce, expires⟩
  | _ => none

/-- credential_issuer/mod.rs:354-365 derived `Deserialize`: the members it reads. -/
def CNonce.shape : Shape := .struct [(str! "c_nonce", .any), (str! "c_nonce_expires_in", .any)]

/-- `serde_json::from_str::<CNonce>`. -/
def CNonce.fromJson (s : Str) : Option CNonce := (Json.see CNonce.shape s).bind CNonce.de

/-- access_token/mod.rs:140-144 derived `Serialize`. -/
def EvaluateAccessTokenRequestOptions.ser (o : EvaluateAccessTokenRequestOptions) : Json :=
  .obj [(str! "expected_user_pin", serOpt serU64 o.expectedUserPin)]

/-- access_token/mod.rs:140-144 derived `Deserialize`. -/
def EvaluateAccessTokenRequestOptions.de (j : Json) : Option EvaluateAccessTokenRequestOptions :=
  match struct [str! "expected_user_pin"] j with
  | some [pin] => (opt Serde.u64 pin).map fun p => ⟨p⟩
  | _ => none

/-- access_token/mod.rs:140-144 derived `Deserialize`: the member it reads. -/
def EvaluateAccessTokenRequestOptions.shape : Shape := .struct [(str! "expected_user_pin", .any)]

/-- `serde_json::from_str::<EvaluateAccessTokenRequestOptions>`. -/
def EvaluateAccessTokenRequestOptions.fromJson (s : Str) : Option EvaluateAccessTokenRequestOptions :=
  (Json.see EvaluateAccessTokenRequestOptions.shape s).bind EvaluateAccessTokenRequestOptions.de

/-- types/authorization_server_metadata.rs:6-7 derived `Serialize`. -/
def AuthorizationServerMetadata.ser (_ : AuthorizationServerMetadata) : Json := .obj []

/-- types/authorization_server_metadata.rs:6-7 derived `Deserialize`. -/
def AuthorizationServerMetadata.de (j : Json) : Option AuthorizationServerMetadata :=
  match struct [] j with
  | some [] => some ⟨⟩
  | _ => none

/-- types/authorization_server_metadata.rs:6-7 derived `Deserialize`: it reads no member. -/
def AuthorizationServerMetadata.shape : Shape := .struct []

/-- `serde_json::from_str::<AuthorizationServerMetadata>`. -/
def AuthorizationServerMetadata.fromJson (s : Str) : Option AuthorizationServerMetadata :=
  (Json.see AuthorizationServerMetadata.shape s).bind AuthorizationServerMetadata.de

/-- jwt/mod.rs:68-78 derived `Serialize` (not the compact form). -/
def ProofJwt.ser (x : Ext) (j : ProofJwt) : Json :=
  .obj [(str! "header", j.header.ser), (str! "body", j.body.ser x),
    (str! "signature", serOpt .str j.signature)]

/-- jwt/mod.rs:68-78 derived `Deserialize` (not the compact form). -/
def ProofJwt.de (x : Ext) (j : Json) : Option ProofJwt :=
  match struct [str! "header", str! "body", str! "signature"] j with
  | some [header, body, signature] => do
    let header ← req ProofJwtHeader.de header
    let body ← req (ProofJwtBody.de x) body
    let signature ← opt Serde.string signature
    some ⟨header, body, signature⟩
  | _ => none

/-- jwt/mod.rs:318-332 derived `Deserialize`: how it reads the members; the others are kept. -/
def ProofJwtHeader.shape : Shape := .flat [(str! "typ", .any), (str! "alg", .any)]

/-- jwt/mod.rs:496-538 derived `Deserialize`: the members it reads. -/
def ProofJwtBody.shape : Shape :=
  .struct [(str! "iss", .any), (str! "aud", .any), (str! "sub", .any), (str! "iat", .any),
    (str! "nonce", .any), (str! "nbf", .any), (str! "exp", .any)]

/-- jwt/mod.rs:68-78 derived `Deserialize`: the members it reads. -/
def ProofJwt.shape : Shape :=
  .struct [(str! "header", ProofJwtHeader.shape), (str! "body", ProofJwtBody.shape), (str! "signature", .any)]

/-- `serde_json::from_str::<ProofJwt>` (not the compact form). -/
def ProofJwt.fromJson (x : Ext) (s : Str) : Option ProofJwt :=
  (Json.see ProofJwt.shape s).bind (ProofJwt.de x)

/-! ### Lists of credentials -/

/-- credential_issuer/mod.rs:44-48 `Default`. -/
def CredentialOrId.default : CredentialOrId := .credentialId []

/-- credential_issuer/mod.rs:122-132 `From<String>` and `From<&str>`. -/
def CredentialOrId.ofText (s : Str) : CredentialOrId := .credentialId s

/-- credential_issuer/mod.rs:134-138 `From<CredentialFormatProfile>`. -/
def CredentialOrId.ofProfile (c : CredentialFormatProfile) : CredentialOrId := .credential c

/-- credential_issuer/mod.rs:113-120 `From<Vec<T>>` for every `T: Into<CredentialOrId>`; lines 84-86
`new` wraps the vector. -/
def CredentialOrIds.ofVec {T : Type} (into : T → CredentialOrId) (v : List T) : CredentialOrIds :=
  v.map into

/-- credential_issuer/mod.rs:106-111 `From<&[&CredentialOrId]>`. -/
def CredentialOrIds.ofSlice (v : List CredentialOrId) : CredentialOrIds := v.map id

/-! ### Results -/

/-- credential_issuer/mod.rs:286-292 derived `Serialize`. -/
def PreEvaluateCredentialRequestResponse.ser (r : PreEvaluateCredentialRequestResponse) : Json :=
  .obj (skipNone (str! "did") .str r.did)

/-- credential_issuer/mod.rs:308-322 derived `Serialize`; `Vec<u8>` is an array of numbers. -/
def ProofOfPossession.ser (p : ProofOfPossession) : Json :=
  .obj [(str! "algorithm", p.algorithm.ser), (str! "public_key", serBytes p.publicKey),
    (str! "message", serBytes p.message), (str! "signature", serBytes p.signature)]

/-- credential_issuer/mod.rs:295-305 derived `Serialize`. -/
def CredentialIssuerEvaluateRequestResponse.ser (r : CredentialIssuerEvaluateRequestResponse) : Json :=
  .obj [(str! "proof_of_possession", serOpt ProofOfPossession.ser r.proofOfPossession),
    (str! "subject_id", serOpt .str r.subjectId), (str! "credential", r.credential.ser)]

/-- `()` as JSON. -/
def serUnit (_ : Unit) : Json := .null

/-- A pair as JSON. -/
def serPair {α β : Type} (f : α → Json) (g : β → Json) (p : α × β) : Json := .arr [f p.1, g p.2]

end Oid4vci
