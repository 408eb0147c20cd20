import Verif.Model.Credential
import Verif.Base.Shape

/-! types/credential_issuer_metadata.rs and types/authorization_server_metadata.rs -/

namespace Oid4vci

open Serde

/-- types/credential_issuer_metadata.rs:119-126 `DisplayLogo`. -/
structure DisplayLogo where
  url : Option Str
  altText : Option Str
deriving DecidableEq, Repr

/-- types/credential_issuer_metadata.rs:91-115 `DisplayProperties`. -/
structure DisplayProperties where
  name : Str
  locale : Option Str
  logo : Option DisplayLogo
  description : Option Str
  backgroundColor : Option Str
  textColor : Option Str
deriving DecidableEq, Repr

/-- types/credential_issuer_metadata.rs:45-87 `CredentialSupported`. The field
`cryptographicBindingMethodsSupported` is spelled `cryptographic_binding_mehtods_supported` in the
code and hence in JSON. -/
structure CredentialSupported where
  format : CredentialFormatProfile
  id : Option Str
  cryptographicBindingMethodsSupported : Option (List Str)
  cryptographicSuitesSupported : Option (List Str)
  display : Option (List DisplayProperties)
deriving DecidableEq, Repr

/-- types/credential_issuer_metadata.rs:12-41 `CredentialIssuerMetadata`. -/
structure CredentialIssuerMetadata where
  credentialIssuer : Str
  authorizationServer : Option Str
  credentialEndpoint : Str
  batchCredentialEndpoint : Option Str
  credentialsSupported : List CredentialSupported
  additionalFields : Option (HMap Json)
deriving DecidableEq, Repr

/-- types/credential_issuer_metadata.rs:12 derived `Default`. -/
def CredentialIssuerMetadata.default : CredentialIssuerMetadata := ⟨[], none, [], none, [], none⟩

/-- types/credential_issuer_metadata.rs:183-187. -/
def DisplayLogo.validate (_ : DisplayLogo) : ValidationResult Unit := .ok ()

/-- types/credential_issuer_metadata.rs:173-181. -/
def DisplayProperties.validate (d : DisplayProperties) : ValidationResult Unit :=
  match d.logo with
  | some logo => do
    logo.validate
    .ok ()
  | none => .ok ()

/-- The loop `for x in xs { x.validate()?; }`. -/
def validateAll {α : Type} (f : α → ValidationResult Unit) : List α → ValidationResult Unit
  | [] => .ok ()
  | x :: xs => do
    f x
    validateAll f xs

/-- types/credential_issuer_metadata.rs:159-171. -/
def CredentialSupported.validate (c : CredentialSupported) : ValidationResult Unit := do
  c.format.validate
  match c.display with
  | some ds => validateAll DisplayProperties.validate ds
  | none => .ok ()

/-- types/credential_issuer_metadata.rs:130-142: `Iterator::all` with `HashSet::insert`, which
returns whether the value was new. `seen` is the set `uniques`. -/
def idsUnique (seen : List Str) : List CredentialSupported → Bool
  | [] => true
  | c :: cs =>
    match c.id with
    | some id => if seen.contains id then false else idsUnique (id :: seen) cs
    | none => idsUnique seen cs

/-- types/credential_issuer_metadata.rs:128-157. -/
def CredentialIssuerMetadata.validate (m : CredentialIssuerMetadata) : ValidationResult Unit :=
  if !idsUnique [] m.credentialsSupported then
    .err (.any (str! "Ids in supported credentials of the issuer metadata are not unique"))
  else validateAll CredentialSupported.validate m.credentialsSupported

/-! ### Serialisation -/

/-- types/credential_issuer_metadata.rs:119 derived `Serialize`. -/
def DisplayLogo.ser (l : DisplayLogo) : Json :=
  .obj [(str! "url", serOpt .str l.url), (str! "alt_text", serOpt .str l.altText)]

/-- types/credential_issuer_metadata.rs:119 derived `Deserialize`. -/
def DisplayLogo.de (j : Json) : Option DisplayLogo :=
  match struct [str! "url", str! "alt_text"] j with
  | some [url, alt] => do
    let url ← opt Serde.string url
    let alt ← opt Serde.string alt
    some ⟨url, alt⟩
  | _ => none

/-- types/credential_issuer_metadata.rs:119 derived `Deserialize`: the members it reads. -/
def DisplayLogo.shape : Shape := .struct [(str! "url", .any), (str! "alt_text", .any)]

/-- types/credential_issuer_metadata.rs:91 derived `Serialize`. -/
def DisplayProperties.ser (d : DisplayProperties) : Json :=
  .obj [(str! "name", .str d.name), (str! "locale", serOpt .str d.locale),
    (str! "logo", serOpt DisplayLogo.ser d.logo),
    (str! "description", serOpt .str d.description),
    (str! "background_color", serOpt .str d.backgroundColor),
    (str! "text_color", serOpt .str d.textColor)]

/-- types/credential_issuer_metadata.rs:91 derived `Deserialize`. -/
def DisplayProperties.de (j : Json) : Option DisplayProperties :=
  match struct [str! "name", str! "locale", str! "logo", str! "description",
      str! "background_color", str! "text_color"] j with
  | some [name, locale, logo, description, background, text] => do
    let name ← req Serde.string name
    let locale ← opt Serde.string locale
    let logo ← opt DisplayLogo.de logo
    let description ← opt Serde.string description
    let background ← opt Serde.string background
    let text ← opt Serde.string text
    some ⟨name, locale, logo, description, background, text⟩
  | _ => none

/-- types/credential_issuer_metadata.rs:91 derived `Deserialize`: the members it reads. -/
def DisplayProperties.shape : Shape :=
  .struct [(str! "name", .any), (str! "locale", .any), (str! "logo", DisplayLogo.shape),
    (str! "description", .any), (str! "background_color", .any), (str! "text_color", .any)]

/-- The members which a flattened internally tagged enum contributes. -/
def CredentialFormatProfile.members (c : CredentialFormatProfile) : List (Str × Json) :=
  match c.ser with
  | .obj kvs => kvs
  | _ => []

/-- types/credential_issuer_metadata.rs:45-87 derived `Serialize`, `format` flattened. -/
def CredentialSupported.ser (c : CredentialSupported) : Json :=
  .obj (c.format.members ++
    [(str! "id", serOpt .str c.id),
     (str! "cryptographic_binding_mehtods_supported",
        serOpt (serVec .str) c.cryptographicBindingMethodsSupported),
     (str! "cryptographic_suites_supported",
        serOpt (serVec .str) c.cryptographicSuitesSupported),
     (str! "display", serOpt (serVec DisplayProperties.ser) c.display)])

/-- types/credential_issuer_metadata.rs:45-87 derived `Deserialize`, `format` flattened. -/
def CredentialSupported.de (j : Json) : Option CredentialSupported :=
  match structFlat [str! "id", str! "cryptographic_binding_mehtods_supported",
      str! "cryptographic_suites_supported", str! "display"] j with
  | some ([id, binding, suites, display], rest) => do
    let id ← opt Serde.string id
    let binding ← opt (vec Serde.string) binding
    let suites ← opt (vec Serde.string) suites
    let display ← opt (vec DisplayProperties.de) display
    let format ← CredentialFormatProfile.de true (.obj rest)
    some ⟨format, id, binding, suites, display⟩
  | _ => none

/-- types/credential_issuer_metadata.rs:45-87 derived `Deserialize`: how it reads the members; the others
are kept for `format`. -/
def CredentialSupported.shape : Shape :=
  .flat [(str! "id", .any), (str! "cryptographic_binding_mehtods_supported", .any),
    (str! "cryptographic_suites_supported", .any), (str! "display", .vec DisplayProperties.shape)]

/-- types/credential_issuer_metadata.rs:12-41 derived `Serialize`, `additional_fields` flattened. -/
def CredentialIssuerMetadata.ser (m : CredentialIssuerMetadata) : Json :=
  .obj ([(str! "credential_issuer", .str m.credentialIssuer),
     (str! "authorization_server", serOpt .str m.authorizationServer),
     (str! "credential_endpoint", .str m.credentialEndpoint),
     (str! "batch_credential_endpoint", serOpt .str m.batchCredentialEndpoint),
     (str! "credentials_supported", serVec CredentialSupported.ser m.credentialsSupported)]
    ++ (m.additionalFields.getD []))

/-- types/credential_issuer_metadata.rs:12-41 derived `Deserialize`: a flattened
`Option<HashMap>` always deserialises to `Some`. -/
def CredentialIssuerMetadata.de (j : Json) : Option CredentialIssuerMetadata :=
  match structFlat [str! "credential_issuer", str! "authorization_server",
      str! "credential_endpoint", str! "batch_credential_endpoint",
      str! "credentials_supported"] j with
  | some ([issuer, server, endpoint, batch, supported], rest) => do
    let issuer ← req Serde.string issuer
    let server ← opt Serde.string server
    let endpoint ← req Serde.string endpoint
    let batch ← opt Serde.string batch
    let supported ← req (vec CredentialSupported.de) supported
    let additional ← entries (fun j => some (value j)) [] rest
    some ⟨issuer, server, endpoint, batch, supported, some additional⟩
  | _ => none

/-- types/credential_issuer_metadata.rs:12-41 derived `Deserialize`: how it reads the members; the others
are kept as `additional_fields`. -/
def CredentialIssuerMetadata.shape : Shape :=
  .flat [(str! "credential_issuer", .any), (str! "authorization_server", .any),
    (str! "credential_endpoint", .any), (str! "batch_credential_endpoint", .any),
    (str! "credentials_supported", .vec CredentialSupported.shape)]

/-- `serde_json::from_str::<CredentialIssuerMetadata>`. -/
def CredentialIssuerMetadata.fromJson (s : Str) : Option CredentialIssuerMetadata :=
  (Json.see CredentialIssuerMetadata.shape s).bind CredentialIssuerMetadata.de

/-- types/authorization_server_metadata.rs:6-7 `AuthorizationServerMetadata {}`. -/
structure AuthorizationServerMetadata where
deriving DecidableEq, Repr

/-- types/authorization_server_metadata.rs:9-13. -/
def AuthorizationServerMetadata.validate (_ : AuthorizationServerMetadata) : ValidationResult Unit :=
  .ok ()

end Oid4vci
