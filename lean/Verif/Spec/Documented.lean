import Verif.Spec.Documents
import Verif.Spec.Reject

/-! What further doc comments of the crate promise, in their own terms. -/

namespace Oid4vci.Spec

/-- access_token/mod.rs:92-97: a PIN is a string of at most eight digits. -/
def IsPin (s : Str) : Prop := s ≠ [] ∧ s.length ≤ 8 ∧ ∀ c ∈ s, '0' ≤ c ∧ c ≤ '9'

/-- The grant of a token request with this code and this PIN member. -/
def pinGrant (code : Str) (pin : Json) : Json :=
  .obj [(str! "grant_type", .str (str! "urn:ietf:params:oauth:grant-type:pre-authorized_code")),
    (str! "pre_authorized_code", .str code), (str! "user_pin", pin)]

/-- A URL with the scheme `https`. -/
def IsHttps (url : Str) : Prop := ∃ rest, url = str! "https://" ++ rest

/-- No two of the languages that are given are the same. -/
def DistinctLanguages (locales : List (Option Str)) : Prop :=
  ∀ (i j : Nat) (l : Str), locales[i]? = some (some l) → locales[j]? = some (some l) → i = j

/-- The languages of a supported credential's display. -/
def displayLanguages (c : CredentialSupported) : List (Option Str) :=
  match c.display with
  | some ds => ds.map fun d => d.locale
  | none => []

/-- The type of key an algorithm is used with (RFC 7518 section 3.1, RFC 8037): `EdDSA` with octet key
pairs, the `ES` family with elliptic curve keys, everything else with keys of another kind. -/
def UsedWith (a : ProofJwtAlgorithm) (k : JwkParams) : Prop :=
  match k with
  | .okp _ => a = .EdDSA
  | .ec _ => a ∈ [.ES256, .ES384, .ES512, .ES256K]
  | .other => a ∉ [.EdDSA, .ES256, .ES384, .ES512, .ES256K, .none]

/-- The key of the DID document to which the header refers. -/
def HeaderKey (x : Ext) (h : ProofJwtHeader) (doc : Option x.Doc) (k : Jwk) : Prop :=
  ∃ kid url d vm, h.additionalHeader = some (.keyId kid) ∧ x.didUrl kid = .ok url ∧ doc = some d ∧
    x.select d url = .verificationMethod vm ∧ x.getJwk vm = .ok k

/-- The names of the variants of `CredentialIssuerError` (credential_issuer/error.rs:14-82). -/
inductive Kind where
  | validation | jwt | authorizedFlow | unknownId | offerEncoding | requestedCredential | expiredCNonce
  | credentialAndToken | serverMetadata | noOffer | noOptions | nonceExpired | noProof
deriving DecidableEq, Repr

/-- The variant of an error. -/
def kind : CredentialIssuerError → Kind
  | .validationError _ => .validation
  | .jwtError _ => .jwt
  | .authorizedFlowNotSupported => .authorizedFlow
  | .credentialIdNotInIssuerMetadata _ => .unknownId
  | .invalidCredentialOfferEncoding _ => .offerEncoding
  | .invalidRequestedCredential .. => .requestedCredential
  | .expiredCNonce .. => .expiredCNonce
  | .credentialAndAcceptanceTokenSupplied => .credentialAndToken
  | .authorizationServerMetadataNotSupported => .serverMetadata
  | .credentialOfferMustBeSupplied => .noOffer
  | .evaluteCredentialRequestOptionsNotSupplied _ => .noOptions
  | .cNonceIsExpired .. => .nonceExpired
  | .noProofInCredentialRequest => .noProof

end Oid4vci.Spec
