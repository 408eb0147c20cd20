import Verif.Spec.Documented
import Verif.Spec.Base64
import Verif.Model.Options

/-! Which members documents are written with, and further promises about written documents. -/

namespace Oid4vci.Spec

/-- An object whose members are those of the listed names that are marked, once each and in this order.
What they contain is not said here. -/
def Writes (names : List (Str × Bool)) (v : Json) : Prop :=
  ∃ kvs, v = .obj kvs ∧ kvs.map Prod.fst = (names.filter (·.2)).map Prod.fst

/-- An object in which exactly the listed names that are marked are members with the value `null`, once
each and in this order. -/
def Nulls (names : List (Str × Bool)) (v : Json) : Prop :=
  ∃ kvs, v = .obj kvs ∧
    (kvs.filter fun p => decide (p.2 = .null)).map Prod.fst = (names.filter (·.2)).map Prod.fst

/-- An object without a member that is `null`. -/
def NoNulls (v : Json) : Prop := ∃ kvs, v = .obj kvs ∧ ∀ k, (k, .null) ∉ kvs

/-! ### The members of each document, in the order of the declarations -/

/-- A claim's name in some language (types/credential.rs:146-157). -/
def subjectDisplayNames (d : CredentialSubjectDisplay) : List (Str × Bool) :=
  [(str! "name", d.name.isSome), (str! "locale", d.locale.isSome)]

/-- A claim (types/credential.rs:122-143). -/
def subjectNames (c : CredentialSubject) : List (Str × Bool) :=
  [(str! "mandatory", c.mandatory.isSome), (str! "valueType", c.valueType.isSome),
   (str! "display", c.display.isSome)]

/-- A credential (types/credential.rs:21-119). -/
def credentialNames : CredentialFormatProfile → List (Str × Bool)
  | .jwtVcJson _ cs order | .jwtVcJsonLd _ cs order =>
    [(str! "format", true), (str! "types", true), (str! "credentialSubject", cs.isSome),
     (str! "order", order.isSome)]
  | .ldpVc _ _ cs order =>
    [(str! "format", true), (str! "@context", true), (str! "types", true),
     (str! "credentialSubject", cs.isSome), (str! "order", order.isSome)]
  | .msoMdoc _ claims order =>
    [(str! "format", true), (str! "doctype", true), (str! "claims", claims.isSome),
     (str! "order", order.isSome)]

/-- The grants of an offer (credential_issuer/mod.rs:259-280). -/
def grantsNames (g : CredentialOfferGrants) : List (Str × Bool) :=
  [(str! "authorization_code", g.authorizedCodeFlow.isSome),
   (str! "urn:ietf:params:oauth:grant-type:pre-authorized_code", g.preAuthorizedCodeFlow.isSome)]

/-- The pre-authorized grant of an offer (credential_issuer/mod.rs:147-166). -/
def preAuthorizedNames (p : PreAuthorizedCodeFlow) : List (Str × Bool) :=
  [(str! "pre-authorized_code", true), (str! "user_pin_required", p.userPinRequired.isSome)]

/-- An offer (credential_issuer/mod.rs:168-194). -/
def offerNames : List (Str × Bool) :=
  [(str! "credential_issuer", true), (str! "credentials", true), (str! "grants", true)]

/-- A grant in a token request (access_token/mod.rs:78-99). -/
def grantNames : GrantType → List (Str × Bool)
  | .authorizedCodeFlow => [(str! "grant_type", true)]
  | .preAuthorizedCodeFlow .. =>
    [(str! "grant_type", true), (str! "pre_authorized_code", true), (str! "user_pin", true)]

/-- A token response (access_token/mod.rs:30-64). -/
def tokenResponseNames : List (Str × Bool) :=
  [(str! "access_token", true), (str! "token_type", true), (str! "expires_in", true),
   (str! "scope", true), (str! "c_nonce", true), (str! "c_nonce_expires_in", true),
   (str! "authorization_pending", true), (str! "interval", true)]

/-- A credential response (credential_issuer/mod.rs:324-350). -/
def responseNames : List (Str × Bool) :=
  [(str! "format", true), (str! "credential", true), (str! "acceptance_token", true),
   (str! "c_nonce", true), (str! "c_nonce_expires_in", true)]

/-- A supported credential in metadata (types/credential_issuer_metadata.rs:43-87). The third name is
misspelt in the code (see C48). -/
def supportedEntryNames (c : CredentialSupported) : List (Str × Bool) :=
  credentialNames c.format ++ [(str! "id", true), (str! "cryptographic_binding_mehtods_supported", true),
    (str! "cryptographic_suites_supported", true), (str! "display", true)]

/-- How a credential is displayed (types/credential_issuer_metadata.rs:89-115). -/
def displayNames : List (Str × Bool) :=
  [(str! "name", true), (str! "locale", true), (str! "logo", true), (str! "description", true),
   (str! "background_color", true), (str! "text_color", true)]

/-- The metadata, without additional members (types/credential_issuer_metadata.rs:10-41). -/
def metadataNames : List (Str × Bool) :=
  [(str! "credential_issuer", true), (str! "authorization_server", true),
   (str! "credential_endpoint", true), (str! "batch_credential_endpoint", true),
   (str! "credentials_supported", true)]

/-- The additional members. -/
def additionalNames (m : CredentialIssuerMetadata) : List (Str × Bool) :=
  match m.additionalFields with
  | some kvs => kvs.map fun p => (p.1, true)
  | none => []

/-- The header of a proof (jwt/mod.rs:316-332,475-492). -/
def headerNames (h : ProofJwtHeader) : List (Str × Bool) :=
  [(str! "typ", true), (str! "alg", true)] ++
  match h.additionalHeader with
  | some (.keyId _) => [(str! "kid", true)]
  | some (.jwk _) => [(str! "jwk", true)]
  | some (.x5c _) => [(str! "x5c", true)]
  | none => []

/-- The claims of a proof (jwt/mod.rs:494-538). -/
def bodyNames (b : ProofJwtBody) : List (Str × Bool) :=
  [(str! "iss", b.issuer.isSome), (str! "aud", true), (str! "sub", true), (str! "iat", true),
   (str! "nonce", true), (str! "nbf", b.notBefore.isSome), (str! "exp", b.expiresAt.isSome)]

/-! ### Results, which are only written -/

/-- Bytes, as an array of numbers. -/
def IsBytes (v : Json) (b : Bytes) : Prop := ListOf (fun v (u : UInt8) => v = .num u.toNat) v b

/-- The name of an algorithm, as a string. -/
def IsAlgorithmName (v : Json) (a : ProofJwtAlgorithm) : Prop := ∃ s, (a, s) ∈ algorithmNames ∧ v = .str s

/-- A proof of possession (credential_issuer/mod.rs:307-322). -/
def PossessionDoc (v : Json) (p : ProofOfPossession) : Prop :=
  ∃ algorithm key message signature,
    Slots [str! "algorithm", str! "public_key", str! "message", str! "signature"] v
      [some algorithm, some key, some message, some signature] ∧
    IsAlgorithmName algorithm p.algorithm ∧ IsBytes key p.publicKey ∧ IsBytes message p.message ∧
    IsBytes signature p.signature

/-- The result of an evaluation (credential_issuer/mod.rs:294-305). -/
def EvaluatedDoc (v : Json) (r : CredentialIssuerEvaluateRequestResponse) : Prop :=
  ∃ possession subject credential,
    Slots [str! "proof_of_possession", str! "subject_id", str! "credential"] v
      [some possession, some subject, some credential] ∧
    Optional PossessionDoc (some possession) r.proofOfPossession ∧
    Optional IsText (some subject) r.subjectId ∧ CredentialDoc false credential r.credential

/-- The result of a pre-evaluation (credential_issuer/mod.rs:284-292). -/
def PreEvaluatedDoc (v : Json) (r : PreEvaluateCredentialRequestResponse) : Prop :=
  ∃ did, Slots [str! "did"] v [did] ∧ Optional IsText did r.did

/-! ### Texts -/

/-- Text within ASCII. -/
def IsAscii (s : Str) : Prop := ∀ c ∈ s, c.val < 128

/-- What the description of an error of the JWT module repeats from its input. -/
def jwtQuoted : JwtError → Str
  | .unableToTransformIntoJoseItem o _ => o
  | .unsupportedAlgorithm a => a
  | .eSXXXHasNoXOrYCoordinate a _ _ => a
  | .unsupportedKeyTypeInJwtHeader _ t => t
  | _ => []

/-- What the description of an error of the credential issuer repeats from its input. -/
def issuerQuoted : CredentialIssuerError → Str
  | .jwtError e => jwtQuoted e
  | .credentialIdNotInIssuerMetadata id => id
  | _ => []

/-! ### Binding methods and languages -/

/-- A value for a DID method (types/credential_issuer_metadata.rs:64-71): the prefix `did:` and the name
of the method (DID-Core section 3.1: lower-case letters and digits), without a colon and an id. -/
def IsDidMethod (s : Str) : Prop :=
  ∃ name, s = str! "did:" ++ name ∧ ∀ c ∈ name, ('a' ≤ c ∧ c ≤ 'z') ∨ ('0' ≤ c ∧ c ≤ '9')

/-- A value that claims to be a DID method. -/
def ClaimsDid (s : Str) : Prop := ∃ rest, s = str! "did:" ++ rest

/-- The claims of a credential. -/
def claimsOf : CredentialFormatProfile → List CredentialSubject
  | .jwtVcJson _ cs _ | .jwtVcJsonLd _ cs _ | .ldpVc _ _ cs _ | .msoMdoc _ cs _ =>
    match cs with
    | some m => m.map Prod.snd
    | none => []

/-- The languages of a claim's display. -/
def claimLanguages (c : CredentialSubject) : List (Option Str) :=
  match c.display with
  | some ds => ds.map fun d => d.locale
  | none => []

end Oid4vci.Spec
