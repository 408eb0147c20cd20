import Verif.Spec.Written
import Verif.Spec.Report

/-! Specification of the details of the errors: the named fields of the variants of the four enums. -/

namespace Oid4vci.Spec

/-- An object with exactly these members, in alphabetical order, and a value of each as described. -/
def Described (fields : List (Str × (Json → Prop))) (v : Json) : Prop :=
  ∃ kvs : List (Str × Json), v = .obj kvs ∧ (kvs.map Prod.fst).Pairwise (· < ·) ∧
    (∀ k, k ∈ kvs.map Prod.fst ↔ k ∈ fields.map Prod.fst) ∧
    ∀ f ∈ fields, ∀ w, (f.1, w) ∈ kvs → f.2 w

/-- This text. -/
def text (s : Str) (v : Json) : Prop := v = .str s

/-- A value, or `null` for none. -/
def orNullOf {α : Type} (is : Json → α → Prop) (o : Option α) (v : Json) : Prop :=
  match o with
  | none => v = .null
  | some a => is v a

/-- The serialisation as a `serde_json::Value`. -/
def asValue (j v : Json) : Prop := v = Serde.value j

/-- validate.rs:9-15. -/
def ValidationDetails : ValidationError → Json → Prop
  | .any m => Described [(str! "validation_message", text m)]

/-- jwt/error.rs:8-155. -/
def JwtDetails (x : Ext) : JwtError → Json → Prop
  | .validationError e => ValidationDetails e
  | .notYetValid f n => Described [(str! "valid_from", text (x.showTime f)), (str! "now", text (x.showTime n))]
  | .notValidAnymore u n => Described [(str! "valid_until", text (x.showTime u)), (str! "now", text (x.showTime n))]
  | .issuerMismatch e a => Described [(str! "expected_iss_in_jwt", orNullOf IsText e),
      (str! "actual_iss_in_jwt", orNullOf IsText a)]
  | .noKeyFoundInProof => (· = .null)
  | .noDidDocumentProvidedForKidAsDid => (· = .null)
  | .unableToTransformIntoDid k m => Described [(str! "kid", text k), (str! "message", text m)]
  | .unableToResolveDidInDidDocument d m => Described [(str! "did", text d), (str! "message", text m)]
  | .unableToMapVerificationMethodToJwk m => Described [(str! "messsage", text m)]
  | .unableToTransformIntoJoseItem o m => Described [(str! "original_string", text o), (str! "serde_message", text m)]
  | .unsupportedAlgorithm a => Described [(str! "algorithm", text a)]
  | .edDSAHasNoXCoordinate => (· = .null)
  | .eSXXXHasNoXOrYCoordinate a px py => Described [(str! "algorithm", text a),
      (str! "x", orNullOf IsBytes px), (str! "y", orNullOf IsBytes py)]
  | .signatureNotInJwt j => Described [(str! "jwt", text j)]
  | .unsupportedKeyTypeInJwtHeader n t => Described [(str! "key_name", text n), (str! "key_type", text t)]
  | .nonceMismatch e a => Described [(str! "expected_nonce", orNullOf IsText e), (str! "actual_nonce", text a)]
  | .audienceMismatch e a => Described [(str! "expected_aud_in_jwt", text e), (str! "actual_aud_in_jwt", text a)]

/-- access_token/error.rs:12-70. -/
def TokenDetails : AccessTokenError → Json → Prop
  | .validationError e => ValidationDetails e
  | .invalidGrantType r a => Described [(str! "requested_grant_type", text r),
      (str! "accepted_grant_type", fun v => ListOf IsText v a)]
  | .authorizedFlowNotSupported => (· = .null)
  | .noFlowSupportedInCredentialOffer => (· = .null)
  | .invalidPreAuthorizedCodeFlowValues p c => Described [(str! "should_pin_be_supplied", (IsFlag · p)),
      (str! "does_code_match", (IsFlag · c))]
  | .invalidAuthorizedAndPreAuthorizedCodeFlow a p => Described [(str! "authorized_error", TokenDetails a),
      (str! "pre_authorized_error", TokenDetails p)]
  | .optionsAreRequiredForEvaluation r => Described [(str! "reason", text r)]
  | .userPinMismatch => (· = .null)
  | .credentialOfferMustBeSupplied => (· = .null)

/-- credential_issuer/error.rs:13-94. -/
def IssuerDetails (x : Ext) : CredentialIssuerError → Json → Prop
  | .validationError e => ValidationDetails e
  | .jwtError e => JwtDetails x e
  | .authorizedFlowNotSupported => (· = .null)
  | .credentialIdNotInIssuerMetadata id => Described [(str! "id", text id)]
  | .invalidCredentialOfferEncoding m => Described [(str! "error_message", text m)]
  | .invalidRequestedCredential r s => Described [(str! "requested_credential", asValue r.ser),
      (str! "supported_formats", fun v => ListOf (fun v c => asValue (CredentialFormatProfile.ser c) v) v s)]
  | .expiredCNonce n e => Described [(str! "now", text (x.showTime n)),
      (str! "expires_in", orNullOf (fun v t => text (x.showTime t) v) e)]
  | .credentialAndAcceptanceTokenSupplied => (· = .null)
  | .authorizationServerMetadataNotSupported => (· = .null)
  | .credentialOfferMustBeSupplied => (· = .null)
  | .evaluteCredentialRequestOptionsNotSupplied r => Described [(str! "reason", text r)]
  | .cNonceIsExpired n e => Described [(str! "now", text (x.showTime n)),
      (str! "expiry_timestamp", text (x.showTime e))]
  | .noProofInCredentialRequest => (· = .null)

/-- The details of an error of any of the enums. -/
def DetailsOf (x : Ext) : AnyError → Json → Prop
  | .validation e => ValidationDetails e
  | .jwt e => JwtDetails x e
  | .token e => TokenDetails e
  | .issuer e => IssuerDetails x e

end Oid4vci.Spec
