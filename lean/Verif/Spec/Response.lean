import Verif.Model.AccessToken
import Verif.Spec.Jwt

/-! Specification of responses and error reports. -/

namespace Oid4vci.Spec

/-- The format names of the OpenID4VCI specification, Appendix E. -/
def formatName : CredentialFormatProfile → Str
  | .jwtVcJson .. => str! "jwt_vc_json"
  | .jwtVcJsonLd .. => str! "jwt_vc_json-ld"
  | .ldpVc .. => str! "ldp_vc"
  | .msoMdoc .. => str! "mso_mdoc"

/-- The documented strings of the access token error codes (RFC 6749, sections 4.1.2.1 and 5.2). -/
def accessTokenCodes : List (AccessTokenErrorCode × Str) :=
  [(.invalidRequest, str! "invalid_request"), (.invalidGrant, str! "invalid_grant"),
   (.invalidClient, str! "invalid_client"), (.accessDenied, str! "access_denied"),
   (.unsupportedResponseType, str! "unsupported_response_type"),
   (.invalidScope, str! "invalid_scope"), (.serverError, str! "server_error"),
   (.temporarilyUnavailable, str! "temporarily_unavailable")]

/-- The documented strings of the credential error codes (OpenID4VCI, section 7.3.1). -/
def credentialCodes : List (CredentialIssuerErrorCode × Str) :=
  [(.invalidRequest, str! "invalid_request"), (.invalidToken, str! "invalid_token"),
   (.unsupportedCredentialType, str! "unsupported_credential_type"),
   (.unsupportedCredentialFormat, str! "unsupported_credential_format"),
   (.invalidOrMissingProof, str! "invalid_or_missing_proof")]

/-- The words of the code, separated by underscores, are written one after the other with capital first
letters. -/
def InCamelCase (code written : Str) : Prop := ∃ ws : List (Char × Str),
  (∀ p ∈ ws, '_' ∉ p.1 :: p.2) ∧ code = List.intercalate ['_'] (ws.map fun p => p.1 :: p.2) ∧
    written = (ws.map fun p => p.1.toUpper :: p.2).flatten

/-- An error of any of the four enums. -/
inductive AnyError where
  | validation (e : ValidationError)
  | jwt (e : JwtError)
  | token (e : AccessTokenError)
  | issuer (e : CredentialIssuerError)

/-- The variant names of each enum, in declaration order (validate.rs, jwt/error.rs,
access_token/error.rs, credential_issuer/error.rs). -/
def variantNames : AnyError → List Str
  | .validation _ => [str! "Any"]
  | .jwt _ => [str! "ValidationError", str! "NotYetValid", str! "NotValidAnymore",
      str! "IssuerMismatch", str! "NoKeyFoundInProof", str! "NoDidDocumentProvidedForKidAsDid",
      str! "UnableToTransformIntoDid", str! "UnableToResolveDidInDidDocument",
      str! "UnableToMapVerificationMethodToJwk", str! "UnableToTransformIntoJoseItem",
      str! "UnsupportedAlgorithm", str! "EdDSAHasNoXCoordinate", str! "ESXXXHasNoXOrYCoordinate",
      str! "SignatureNotInJwt", str! "UnsupportedKeyTypeInJwtHeader", str! "NonceMismatch",
      str! "AudienceMismatch"]
  | .token _ => [str! "ValidationError", str! "InvalidGrantType", str! "AuthorizedFlowNotSupported",
      str! "NoFlowSupportedInCredentialOffer", str! "InvalidPreAuthorizedCodeFlowValues",
      str! "InvalidAuthorizedAndPreAuthorizedCodeFlow", str! "OptionsAreRequiredForEvaluation",
      str! "UserPinMismatch", str! "CredentialOfferMustBeSupplied"]
  | .issuer _ => [str! "ValidationError", str! "JwtError", str! "AuthorizedFlowNotSupported",
      str! "CredentialIdNotInIssuerMetadata", str! "InvalidCredentialOfferEncoding",
      str! "InvalidRequestedCredential", str! "ExpiredCNonce",
      str! "CredentialAndAcceptanceTokenSupplied", str! "AuthorizationServerMetadataNotSupported",
      str! "CredentialOfferMustBeSupplied", str! "EvaluteCredentialRequestOptionsNotSupplied",
      str! "CNonceIsExpired", str! "NoProofInCredentialRequest"]

/-- The position of the variant in its enum. -/
def AnyError.variant : AnyError → Nat
  | .validation e => e.ctorIdx
  | .jwt e => e.ctorIdx
  | .token e => e.ctorIdx
  | .issuer e => e.ctorIdx

/-- The same variant of the same enum, whatever the payloads. -/
def SameVariant (a b : AnyError) : Prop := a.ctorIdx = b.ctorIdx ∧ a.variant = b.variant

/-- What the caller is told about an error. -/
def AnyError.information (x : Ext) : AnyError → ErrorInformation
  | .validation e => e.information
  | .jwt e => e.information x
  | .token e => e.information
  | .issuer e => e.information x

/-- Every member of a JSON object with this key, in order. -/
def members (key : Str) : Json → List Json
  | .obj kvs => (kvs.filter fun p => decide (p.1 = key)).map (·.2)
  | _ => []

end Oid4vci.Spec
