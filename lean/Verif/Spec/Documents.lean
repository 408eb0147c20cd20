import Verif.Spec.Claims
import Verif.Spec.Response

/-!
The JSON documents of the protocol: which members they have, under which names, and of which types.
A relation `Doc v t` says that the JSON value `v` is a document for the Rust value `t`.

Two shapes stand for a struct: an object with the members by name, in any order and with any further
members, or an array with one element per member in the order of the declaration (serde accepts both).
-/

namespace Oid4vci.Spec

/-- What is found under a name: nothing, or the value of the only member of that name. -/
def Slot (kvs : List (Str × Json)) (k : Str) : Option Json → Prop
  | none => Absent kvs k
  | some v => Sole kvs k v

/-- What the members with these names are. -/
inductive Slots (names : List Str) : Json → List (Option Json) → Prop
  | object (kvs : List (Str × Json)) (os : List (Option Json)) :
      List.Forall₂ (Slot kvs) names os → Slots names (.obj kvs) os
  | array (vs : List Json) : vs.length = names.length → Slots names (.arr vs) (vs.map some)

/-- A member that has to be present. -/
def Required {α : Type} (is : Json → α → Prop) (o : Option Json) (a : α) : Prop :=
  ∃ v, o = some v ∧ is v a

/-- A member that may be missing or `null`. -/
def Optional {α : Type} (is : Json → α → Prop) (o : Option Json) : Option α → Prop
  | none => o = none ∨ o = some .null
  | some a => ∃ v, o = some v ∧ is v a

/-- A JSON truth value. -/
def IsFlag (v : Json) (b : Bool) : Prop := v = .bool b

/-- A 32-bit number. -/
def IsU32 (v : Json) (n : UInt32) : Prop := v = .num n.toNat

/-- A 64-bit number. -/
def IsU64 (v : Json) (n : UInt64) : Prop := v = .num n.toNat

/-- A JSON array. -/
def ListOf {α : Type} (is : Json → α → Prop) (v : Json) (as : List α) : Prop :=
  ∃ vs, v = .arr vs ∧ List.Forall₂ is vs as

/-- Every key once, in the order of the first occurrences, with the value of the last occurrence. -/
def lastWins {α : Type} (l : List (Str × α)) : HMap α :=
  (l.map Prod.fst).eraseDups.filterMap fun k => l.reverse.find? fun p => decide (p.1 = k)

/-- A JSON object as a map. -/
def MapOf {α : Type} (is : Json → α → Prop) (v : Json) (m : HMap α) : Prop :=
  ∃ kvs as, v = .obj kvs ∧ List.Forall₂ (fun p q => p.1 = q.1 ∧ is p.2 q.2) kvs as ∧ m = lastWins as

/-! ### Credentials (OpenID4VCI, Appendix E) -/

/-- A claim's name in some language. -/
def SubjectDisplayDoc (v : Json) (d : CredentialSubjectDisplay) : Prop :=
  ∃ name locale, Slots [str! "name", str! "locale"] v [name, locale] ∧
    Optional IsText name d.name ∧ Optional IsText locale d.locale

/-- A claim of the subject. -/
def SubjectDoc (v : Json) (c : CredentialSubject) : Prop :=
  ∃ mandatory type display, Slots [str! "mandatory", str! "valueType", str! "display"] v
      [mandatory, type, display] ∧
    Optional IsFlag mandatory c.mandatory ∧ Optional IsText type c.valueType ∧
    Optional (ListOf SubjectDisplayDoc) display c.display

/-- A JSON-LD context: a string, or an object; its values are taken as they are, up to the order of
the members and overridden duplicates in nested objects (`Serde.value`). -/
def ContextDoc (v : Json) : LinkedDataContext → Prop
  | .string s => v = .str s
  | .map m => MapOf (fun v j => j = Serde.value v) v m

/-- The tag of an internally tagged enum, and what remains. -/
inductive Tagged (tag : Str) : Json → Json → Json → Prop
  | object (kvs : List (Str × Json)) (t : Json) : Sole kvs tag t →
      Tagged tag (.obj kvs) t (.obj (kvs.filter fun p => decide (p.1 ≠ tag)))
  | array (t : Json) (r : List Json) : Tagged tag (.arr (t :: r)) t (.arr r)

/-- The format name; documents read through a buffer may have its position instead. -/
def IsFormat (buffered : Bool) (name : Str) (position : Nat) (v : Json) : Prop :=
  v = .str name ∨ (buffered = true ∧ v = .num position)

/-- A W3C credential in JWT form. -/
def JwtContent (v : Json) (types : List Str) (cs : Option (HMap CredentialSubject))
    (order : Option (List Str)) : Prop :=
  ∃ a b c, Slots [str! "types", str! "credentialSubject", str! "order"] v [a, b, c] ∧
    Required (ListOf IsText) a types ∧ Optional (MapOf SubjectDoc) b cs ∧
    Optional (ListOf IsText) c order

/-- A credential format profile. -/
def CredentialDoc (buffered : Bool) (v : Json) (c : CredentialFormatProfile) : Prop :=
  ∃ t content, Tagged (str! "format") v t content ∧
    match c with
    | .jwtVcJson types cs order =>
      IsFormat buffered (str! "jwt_vc_json") 0 t ∧ JwtContent content types cs order
    | .jwtVcJsonLd types cs order =>
      IsFormat buffered (str! "jwt_vc_json-ld") 1 t ∧ JwtContent content types cs order
    | .ldpVc ctx types cs order =>
      IsFormat buffered (str! "ldp_vc") 2 t ∧
      ∃ a b c d, Slots [str! "@context", str! "types", str! "credentialSubject", str! "order"]
          content [a, b, c, d] ∧
        Required (ListOf ContextDoc) a ctx ∧ Required (ListOf IsText) b types ∧
        Optional (MapOf SubjectDoc) c cs ∧ Optional (ListOf IsText) d order
    | .msoMdoc doctype claims order =>
      IsFormat buffered (str! "mso_mdoc") 3 t ∧
      ∃ a b c, Slots [str! "doctype", str! "claims", str! "order"] content [a, b, c] ∧
        Required IsText a doctype ∧ Optional (MapOf SubjectDoc) b claims ∧
        Optional (ListOf IsText) c order

/-! ### The credential offer (section 4.1.1) -/

/-- An entry of the offer: an id or a credential. -/
def EntryDoc (v : Json) : CredentialOrId → Prop
  | .credentialId s => v = .str s
  | .credential c => CredentialDoc true v c

/-- The authorized grant. -/
def AuthorizedDoc (v : Json) (a : AuthorizedCodeFlow) : Prop :=
  ∃ s, Slots [str! "issuer_state"] v [s] ∧ Optional IsText s a.issuerState

/-- The pre-authorized grant. -/
def PreAuthorizedDoc (v : Json) (p : PreAuthorizedCodeFlow) : Prop :=
  ∃ code pin, Slots [str! "pre-authorized_code", str! "user_pin_required"] v [code, pin] ∧
    Required IsText code p.code ∧ Optional IsFlag pin p.userPinRequired

/-- The grants. -/
def GrantsDoc (v : Json) (g : CredentialOfferGrants) : Prop :=
  ∃ a p, Slots [str! "authorization_code",
      str! "urn:ietf:params:oauth:grant-type:pre-authorized_code"] v [a, p] ∧
    Optional AuthorizedDoc a g.authorizedCodeFlow ∧
    Optional PreAuthorizedDoc p g.preAuthorizedCodeFlow

/-- A credential offer. -/
def OfferDoc (v : Json) (o : CredentialOffer) : Prop :=
  ∃ issuer creds grants, Slots [str! "credential_issuer", str! "credentials", str! "grants"] v
      [issuer, creds, grants] ∧
    Required IsText issuer o.credentialIssuer ∧ Required (ListOf EntryDoc) creds o.credentials ∧
    Required GrantsDoc grants o.grants

/-! ### Token request and response -/

/-- The grant of a token request. A request for the authorized code flow may have any further
members, but no further elements. -/
def GrantDoc (v : Json) (g : GrantType) : Prop :=
  ∃ t content, Tagged (str! "grant_type") v t content ∧
    match g with
    | .authorizedCodeFlow => t = .str (str! "authorization_code") ∧
        ((∃ kvs, content = .obj kvs) ∨ content = .arr [])
    | .preAuthorizedCodeFlow code pin =>
      t = .str (str! "urn:ietf:params:oauth:grant-type:pre-authorized_code") ∧
      ∃ a b, Slots [str! "pre_authorized_code", str! "user_pin"] content [a, b] ∧
        Required IsText a code ∧ Optional IsU64 b pin

/-- A token request. -/
def TokenRequestDoc (v : Json) (r : AccessTokenRequest) : Prop :=
  ∃ g, Slots [str! "grant_type"] v [g] ∧ Required GrantDoc g r.grantType

/-- The token type: the variant's name, as a string or as the key of `null`. -/
def TokenTypeDoc (v : Json) (_ : AccessTokenType) : Prop :=
  v = .str (str! "Bearer") ∨ v = .obj [(str! "Bearer", .null)]

/-- A token response (section 6.2). -/
def TokenResponseDoc (v : Json) (r : AccessTokenSuccessResponse) : Prop :=
  ∃ token type expires scope nonce nonceExpires pending interval,
    Slots [str! "access_token", str! "token_type", str! "expires_in", str! "scope", str! "c_nonce",
      str! "c_nonce_expires_in", str! "authorization_pending", str! "interval"] v
      [token, type, expires, scope, nonce, nonceExpires, pending, interval] ∧
    Required IsText token r.accessToken ∧ Required TokenTypeDoc type r.tokenType ∧
    Optional IsU32 expires r.expiresIn ∧ Optional IsText scope r.scope ∧
    Optional IsText nonce r.cNonce ∧ Optional IsU32 nonceExpires r.cNonceExpiresIn ∧
    Optional IsFlag pending r.authorizationPending ∧ Optional IsU32 interval r.interval

/-! ### Credential request and response (section 7) -/

/-- A proof; the type is `JWT` unless given. -/
def ProofDoc (v : Json) (p : CredentialRequestProof) : Prop :=
  ∃ type jwt, Slots [str! "proof_type", str! "jwt"] v [type, jwt] ∧
    (Required IsText type p.proofType ∨ (type = none ∧ p.proofType = str! "JWT")) ∧
    Required IsText jwt p.jwt

/-- A credential request: an object with the members of a credential and a proof. -/
def RequestDoc (v : Json) (r : CredentialRequest) : Prop :=
  ∃ kvs proof, v = .obj kvs ∧ Slot kvs (str! "proof") proof ∧ Optional ProofDoc proof r.proof ∧
    CredentialDoc true (.obj (kvs.filter fun p => decide (p.1 ≠ str! "proof"))) r.format

/-- The issued credential, under the name of the variant. -/
def IssuedDoc (v : Json) : CredentialFormatProfileOrEncoded → Prop
  | .credentialFormatProfile c =>
    ∃ w, v = .obj [(str! "CredentialFormatProfile", w)] ∧ CredentialDoc false w c
  | .encoded s => v = .obj [(str! "Encoded", .str s)]

/-- A credential response. -/
def ResponseDoc (v : Json) (r : CredentialSuccessResponse) : Prop :=
  ∃ format credential token nonce expires,
    Slots [str! "format", str! "credential", str! "acceptance_token", str! "c_nonce",
      str! "c_nonce_expires_in"] v [format, credential, token, nonce, expires] ∧
    Required IsText format r.format ∧ Optional IssuedDoc credential r.credential ∧
    Optional IsText token r.acceptanceToken ∧ Optional IsText nonce r.cNonce ∧
    Optional IsU32 expires r.cNonceExpiresIn

/-! ### Issuer metadata (section 10.2) -/

/-- A logo. -/
def LogoDoc (v : Json) (l : DisplayLogo) : Prop :=
  ∃ url alt, Slots [str! "url", str! "alt_text"] v [url, alt] ∧
    Optional IsText url l.url ∧ Optional IsText alt l.altText

/-- Display properties. -/
def DisplayDoc (v : Json) (d : DisplayProperties) : Prop :=
  ∃ name locale logo description background text,
    Slots [str! "name", str! "locale", str! "logo", str! "description", str! "background_color",
      str! "text_color"] v [name, locale, logo, description, background, text] ∧
    Required IsText name d.name ∧ Optional IsText locale d.locale ∧ Optional LogoDoc logo d.logo ∧
    Optional IsText description d.description ∧ Optional IsText background d.backgroundColor ∧
    Optional IsText text d.textColor

/-- The names of the members of a supported credential that are not those of the credential format;
`mehtods` is the spelling of the code. -/
def supportedNames : List Str :=
  [str! "id", str! "cryptographic_binding_mehtods_supported",
   str! "cryptographic_suites_supported", str! "display"]

/-- A supported credential: an object with the members of a credential and four more. -/
def SupportedDoc (v : Json) (c : CredentialSupported) : Prop :=
  ∃ kvs id binding suites display, v = .obj kvs ∧
    List.Forall₂ (Slot kvs) supportedNames [id, binding, suites, display] ∧
    Optional IsText id c.id ∧
    Optional (ListOf IsText) binding c.cryptographicBindingMethodsSupported ∧
    Optional (ListOf IsText) suites c.cryptographicSuitesSupported ∧
    Optional (ListOf DisplayDoc) display c.display ∧
    CredentialDoc true (.obj (kvs.filter fun p => decide (p.1 ∉ supportedNames))) c.format

/-- Issuer metadata: all members without a field of their own are kept as additional fields. -/
def MetadataDoc (v : Json) (m : CredentialIssuerMetadata) : Prop :=
  ∃ kvs issuer server endpoint batch supported, v = .obj kvs ∧
    List.Forall₂ (Slot kvs) metadataFields [issuer, server, endpoint, batch, supported] ∧
    Required IsText issuer m.credentialIssuer ∧ Optional IsText server m.authorizationServer ∧
    Required IsText endpoint m.credentialEndpoint ∧
    Optional IsText batch m.batchCredentialEndpoint ∧
    Required (ListOf SupportedDoc) supported m.credentialsSupported ∧
    ∃ a, m.additionalFields = some a ∧ MapOf (fun v j => j = Serde.value v)
      (.obj (kvs.filter fun p => decide (p.1 ∉ metadataFields))) a

/-! ### The header of a proof JWT -/

/-- The names of the algorithms: RFC 7518 section 3.1, RFC 8037, RFC 8812, RFC 7518 section 4.1. -/
def algorithmNames : List (ProofJwtAlgorithm × Str) :=
  [(.HS256, str! "HS256"), (.HS384, str! "HS384"), (.HS512, str! "HS512"), (.RS256, str! "RS256"),
   (.RS384, str! "RS384"), (.RS512, str! "RS512"), (.ES256, str! "ES256"), (.ES384, str! "ES384"),
   (.ES512, str! "ES512"), (.PS256, str! "PS256"), (.PS384, str! "PS384"), (.PS512, str! "PS512"),
   (.EdDSA, str! "EdDSA"), (.ES256K, str! "ES256K"), (.ECDHES, str! "ECDH-ES"), (.none, str! "none")]

/-- An algorithm by its name, as a string or as the key of `null`. -/
def AlgorithmDoc (v : Json) (a : ProofJwtAlgorithm) : Prop :=
  ∃ s, (a, s) ∈ algorithmNames ∧ (v = .str s ∨ v = .obj [(s, .null)])

/-- The members that identify the key, and what they stand for. -/
def keyOf (s : Str) : List (Str × ProofJwtAdditionalHeader) :=
  [(str! "kid", .keyId s), (str! "jwk", .jwk s), (str! "x5c", .x5c s)]

/-- What a key member stands for: nothing, unless it is a string. -/
def KeyValue (k : Str) (v : Json) : Option ProofJwtAdditionalHeader → Prop
  | some a => ∃ s, v = .str s ∧ (k, a) ∈ keyOf s
  | none => ∀ s, v ≠ .str s

/-- The key: the first key member in document order counts, if it is a string. -/
def KeyDoc (kvs : List (Str × Json)) (key : Option ProofJwtAdditionalHeader) : Prop :=
  (key = none ∧ ∀ p ∈ kvs, p.1 ∉ (keyOf []).map Prod.fst) ∨
  ∃ before k v after, kvs = before ++ (k, v) :: after ∧
    (∀ p ∈ before, p.1 ∉ (keyOf []).map Prod.fst) ∧ k ∈ (keyOf []).map Prod.fst ∧
    KeyValue k v key

/-- The header of a proof JWT: an object. -/
def HeaderDoc (v : Json) (h : ProofJwtHeader) : Prop :=
  ∃ kvs alg, v = .obj kvs ∧ TextClaim kvs (str! "typ") h.typ ∧ Sole kvs (str! "alg") alg ∧
    AlgorithmDoc alg h.alg ∧ KeyDoc kvs h.additionalHeader

end Oid4vci.Spec
