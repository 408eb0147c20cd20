import Verif.Model.Ext
import Verif.Model.Credential

/-!
The error enums: jwt/error.rs, access_token/error.rs, credential_issuer/error.rs, with
`ErrorInformation` (error.rs) and the macro `error_impl!` (macros.rs).
-/

namespace Oid4vci

open Serde

/-- jwt/error.rs:8-155 `JwtError`. -/
inductive JwtError where
  | validationError (e : ValidationError)
  | notYetValid (validFrom now : Time)
  | notValidAnymore (validUntil now : Time)
  | issuerMismatch (expectedIssInJwt actualIssInJwt : Option Str)
  | noKeyFoundInProof
  | noDidDocumentProvidedForKidAsDid
  | unableToTransformIntoDid (kid message : Str)
  | unableToResolveDidInDidDocument (did message : Str)
  | unableToMapVerificationMethodToJwk (messsage : Str)
  | unableToTransformIntoJoseItem (originalString serdeMessage : Str)
  | unsupportedAlgorithm (algorithm : Str)
  | edDSAHasNoXCoordinate
  | eSXXXHasNoXOrYCoordinate (algorithm : Str) (x y : Option Bytes)
  | signatureNotInJwt (jwt : Str)
  | unsupportedKeyTypeInJwtHeader (keyName keyType : Str)
  | nonceMismatch (expectedNonce : Option Str) (actualNonce : Str)
  | audienceMismatch (expectedAudInJwt actualAudInJwt : Str)
deriving DecidableEq, Repr

/-- jwt/error.rs:158 `JwtResult`. -/
abbrev JwtResult (α : Type) := Res JwtError α

/-- access_token/error.rs:11-70 `AccessTokenError`. -/
inductive AccessTokenError where
  | validationError (e : ValidationError)
  | invalidGrantType (requestedGrantType : Str) (acceptedGrantType : List Str)
  | authorizedFlowNotSupported
  | noFlowSupportedInCredentialOffer
  | invalidPreAuthorizedCodeFlowValues (shouldPinBeSupplied doesCodeMatch : Bool)
  | invalidAuthorizedAndPreAuthorizedCodeFlow (authorizedError preAuthorizedError : AccessTokenError)
  | optionsAreRequiredForEvaluation (reason : Str)
  | userPinMismatch
  | credentialOfferMustBeSupplied
deriving DecidableEq, Repr

/-- access_token/error.rs:7 `AccessTokenResult`. -/
abbrev AccessTokenResult (α : Type) := Res AccessTokenError α

/-- credential_issuer/error.rs:12-94 `CredentialIssuerError`. -/
inductive CredentialIssuerError where
  | validationError (e : ValidationError)
  | jwtError (e : JwtError)
  | authorizedFlowNotSupported
  | credentialIdNotInIssuerMetadata (id : Str)
  | invalidCredentialOfferEncoding (errorMessage : Str)
  | invalidRequestedCredential (requestedCredential : CredentialFormatProfile)
      (supportedFormats : List CredentialFormatProfile)
  | expiredCNonce (now : Time) (expiresIn : Option Time)
  | credentialAndAcceptanceTokenSupplied
  | authorizationServerMetadataNotSupported
  | credentialOfferMustBeSupplied
  | evaluteCredentialRequestOptionsNotSupplied (reason : Str)
  | cNonceIsExpired (now expiryTimestamp : Time)
  | noProofInCredentialRequest
deriving DecidableEq, Repr

/-- credential_issuer/error.rs:9 `CredentialIssuerResult`. -/
abbrev CredentialIssuerResult (α : Type) := Res CredentialIssuerError α

/-! ### Discriminants, names, descriptions and JSON -/

/-- macros.rs:29-31 and 50-52 `code()` reads the discriminant (`#[repr(u32)]`, the explicit values
in the enum definitions); here for validate.rs:14. -/
def ValidationError.code : ValidationError → UInt32
  | any _ => 1

/-- `AsRefStr` (strum): the variant's name. -/
def ValidationError.name : ValidationError → Str
  | any _ => str! "Any"

/-- validate.rs:9 `Display`. -/
def ValidationError.description : ValidationError → Str
  | any _ => str! "An error occurred during validation, serialization or deserialization"

/-- validate.rs:5-14 derived `Serialize`, untagged. -/
def ValidationError.ser : ValidationError → Json
  | any m => .obj [(str! "validation_message", .str m)]

/-- jwt/error.rs:14-154: the discriminants. -/
def JwtError.code : JwtError → UInt32
  | validationError _ => 300
  | notYetValid .. => 301
  | notValidAnymore .. => 302
  | issuerMismatch .. => 303
  | noKeyFoundInProof => 304
  | noDidDocumentProvidedForKidAsDid => 305
  | unableToTransformIntoDid .. => 306
  | unableToResolveDidInDidDocument .. => 307
  | unableToMapVerificationMethodToJwk _ => 308
  | unableToTransformIntoJoseItem .. => 309
  | unsupportedAlgorithm _ => 310
  | edDSAHasNoXCoordinate => 311
  | eSXXXHasNoXOrYCoordinate .. => 312
  | signatureNotInJwt _ => 313
  | unsupportedKeyTypeInJwtHeader .. => 314
  | nonceMismatch .. => 315
  | audienceMismatch .. => 316

/-- jwt/error.rs:8 `AsRefStr`. -/
def JwtError.name : JwtError → Str
  | validationError _ => str! "ValidationError"
  | notYetValid .. => str! "NotYetValid"
  | notValidAnymore .. => str! "NotValidAnymore"
  | issuerMismatch .. => str! "IssuerMismatch"
  | noKeyFoundInProof => str! "NoKeyFoundInProof"
  | noDidDocumentProvidedForKidAsDid => str! "NoDidDocumentProvidedForKidAsDid"
  | unableToTransformIntoDid .. => str! "UnableToTransformIntoDid"
  | unableToResolveDidInDidDocument .. => str! "UnableToResolveDidInDidDocument"
  | unableToMapVerificationMethodToJwk _ => str! "UnableToMapVerificationMethodToJwk"
  | unableToTransformIntoJoseItem .. => str! "UnableToTransformIntoJoseItem"
  | unsupportedAlgorithm _ => str! "UnsupportedAlgorithm"
  | edDSAHasNoXCoordinate => str! "EdDSAHasNoXCoordinate"
  | eSXXXHasNoXOrYCoordinate .. => str! "ESXXXHasNoXOrYCoordinate"
  | signatureNotInJwt _ => str! "SignatureNotInJwt"
  | unsupportedKeyTypeInJwtHeader .. => str! "UnsupportedKeyTypeInJwtHeader"
  | nonceMismatch .. => str! "NonceMismatch"
  | audienceMismatch .. => str! "AudienceMismatch"

/-- jwt/error.rs:13-147 `Display` (thiserror). -/
def JwtError.description (x : Ext) : JwtError → Str
  | validationError _ => str! "An error occurred while validating"
  | notYetValid f n =>
    str! "JWT is not yet valid. Valid from: " ++ x.dispTime f ++ str! " and checked at "
      ++ x.dispTime n
  | notValidAnymore u n =>
    str! "JWT is not valid anymore. Valid until: " ++ x.dispTime u ++ str! " and checked at "
      ++ x.dispTime n
  | issuerMismatch .. => str! "`iss` field in the body mismatched with provided client id"
  | noKeyFoundInProof => str! "No `kid`, `jwk` or `x5c` found in the JWT header"
  | noDidDocumentProvidedForKidAsDid => str! "No did document provided when the `kid` is a did"
  | unableToTransformIntoDid .. => str! "Unable to transform did, from `kid`, into a Did type"
  | unableToResolveDidInDidDocument .. =>
    str! "Unable to find the verification method the did, `kid`, was referring to"
  | unableToMapVerificationMethodToJwk _ => str! "Unable to map the verification method to a JWK"
  | unableToTransformIntoJoseItem o _ =>
    str! "Unable to convert '" ++ o ++ str! "' into a valid Jose Item"
  | unsupportedAlgorithm a => str! "supplied algorithm, '" ++ a ++ str! "' is not valid"
  | edDSAHasNoXCoordinate => str! "JWK with algorithm of 'edDSA' has no x coordinate"
  | eSXXXHasNoXOrYCoordinate a _ _ =>
    str! "JWK with algorithm of '" ++ a ++ str! "' has no 'x' or 'y' coordinate"
  | signatureNotInJwt _ => str! "Signature was expected but not found in the JWT"
  | unsupportedKeyTypeInJwtHeader _ t =>
    str! "Unsupported key type `" ++ t ++ str! "` found in JWT header"
  | nonceMismatch .. => str! "Expected nonce was not found in the JWT"
  | audienceMismatch .. =>
    str! "`aud` field in the body mismatched with provided credential issuer url"

/-- A byte vector as JSON. -/
def serBytes (b : Bytes) : Json := serVec (fun u => .num u.toNat) b

/-- jwt/error.rs:8-155 derived `Serialize`, untagged. -/
def JwtError.ser (x : Ext) : JwtError → Json
  | validationError e => e.ser
  | notYetValid f n =>
    .obj [(str! "valid_from", .str (x.showTime f)), (str! "now", .str (x.showTime n))]
  | notValidAnymore u n =>
    .obj [(str! "valid_until", .str (x.showTime u)), (str! "now", .str (x.showTime n))]
  | issuerMismatch e a =>
    .obj [(str! "expected_iss_in_jwt", serOpt .str e), (str! "actual_iss_in_jwt", serOpt .str a)]
  | noKeyFoundInProof => .null
  | noDidDocumentProvidedForKidAsDid => .null
  | unableToTransformIntoDid k m => .obj [(str! "kid", .str k), (str! "message", .str m)]
  | unableToResolveDidInDidDocument d m => .obj [(str! "did", .str d), (str! "message", .str m)]
  | unableToMapVerificationMethodToJwk m => .obj [(str! "messsage", .str m)]
  | unableToTransformIntoJoseItem o m =>
    .obj [(str! "original_string", .str o), (str! "serde_message", .str m)]
  | unsupportedAlgorithm a => .obj [(str! "algorithm", .str a)]
  | edDSAHasNoXCoordinate => .null
  | eSXXXHasNoXOrYCoordinate a px py =>
    .obj [(str! "algorithm", .str a), (str! "x", serOpt serBytes px), (str! "y", serOpt serBytes py)]
  | signatureNotInJwt j => .obj [(str! "jwt", .str j)]
  | unsupportedKeyTypeInJwtHeader n t => .obj [(str! "key_name", .str n), (str! "key_type", .str t)]
  | nonceMismatch e a =>
    .obj [(str! "expected_nonce", serOpt .str e), (str! "actual_nonce", .str a)]
  | audienceMismatch e a =>
    .obj [(str! "expected_aud_in_jwt", .str e), (str! "actual_aud_in_jwt", .str a)]

/-- access_token/error.rs:17-69: the discriminants (408 is skipped). -/
def AccessTokenError.code : AccessTokenError → UInt32
  | validationError _ => 400
  | invalidGrantType .. => 401
  | authorizedFlowNotSupported => 402
  | noFlowSupportedInCredentialOffer => 403
  | invalidPreAuthorizedCodeFlowValues .. => 404
  | invalidAuthorizedAndPreAuthorizedCodeFlow .. => 405
  | optionsAreRequiredForEvaluation _ => 406
  | userPinMismatch => 407
  | credentialOfferMustBeSupplied => 409

/-- access_token/error.rs:12 `AsRefStr`. -/
def AccessTokenError.name : AccessTokenError → Str
  | validationError _ => str! "ValidationError"
  | invalidGrantType .. => str! "InvalidGrantType"
  | authorizedFlowNotSupported => str! "AuthorizedFlowNotSupported"
  | noFlowSupportedInCredentialOffer => str! "NoFlowSupportedInCredentialOffer"
  | invalidPreAuthorizedCodeFlowValues .. => str! "InvalidPreAuthorizedCodeFlowValues"
  | invalidAuthorizedAndPreAuthorizedCodeFlow .. => str! "InvalidAuthorizedAndPreAuthorizedCodeFlow"
  | optionsAreRequiredForEvaluation _ => str! "OptionsAreRequiredForEvaluation"
  | userPinMismatch => str! "UserPinMismatch"
  | credentialOfferMustBeSupplied => str! "CredentialOfferMustBeSupplied"

/-- access_token/error.rs:16-68 `Display`; `transparent` forwards to the inner error. -/
def AccessTokenError.description : AccessTokenError → Str
  | validationError e => e.description
  | invalidGrantType .. => str! "Invalid requested grant type"
  | authorizedFlowNotSupported => str! "The Authorized flow is currently not supported"
  | noFlowSupportedInCredentialOffer =>
    str! "Supplied credential offer has no authorized, or pre-authorized, code flow"
  | invalidPreAuthorizedCodeFlowValues .. =>
    str! "Requested pre-authorized code flow has invalid values"
  | invalidAuthorizedAndPreAuthorizedCodeFlow .. =>
    str! "Both the authorized and pre-authorized are incorrect"
  | optionsAreRequiredForEvaluation _ =>
    str! "Options are required when evaluating the access token request"
  | userPinMismatch => str! "Provided user pin does not match user pin from access token request"
  | credentialOfferMustBeSupplied =>
    str! "Access token request is not yet supported without a credential offer"

/-- access_token/error.rs:12-70 derived `Serialize`, untagged. -/
def AccessTokenError.ser : AccessTokenError → Json
  | validationError e => e.ser
  | invalidGrantType r a =>
    .obj [(str! "requested_grant_type", .str r), (str! "accepted_grant_type", serVec .str a)]
  | authorizedFlowNotSupported => .null
  | noFlowSupportedInCredentialOffer => .null
  | invalidPreAuthorizedCodeFlowValues p c =>
    .obj [(str! "should_pin_be_supplied", .bool p), (str! "does_code_match", .bool c)]
  | invalidAuthorizedAndPreAuthorizedCodeFlow a p =>
    .obj [(str! "authorized_error", a.ser), (str! "pre_authorized_error", p.ser)]
  | optionsAreRequiredForEvaluation r => .obj [(str! "reason", .str r)]
  | userPinMismatch => .null
  | credentialOfferMustBeSupplied => .null

/-- credential_issuer/error.rs:18-93: the discriminants. -/
def CredentialIssuerError.code : CredentialIssuerError → UInt32
  | validationError _ => 100
  | jwtError _ => 101
  | authorizedFlowNotSupported => 102
  | credentialIdNotInIssuerMetadata _ => 103
  | invalidCredentialOfferEncoding _ => 104
  | invalidRequestedCredential .. => 105
  | expiredCNonce .. => 106
  | credentialAndAcceptanceTokenSupplied => 107
  | authorizationServerMetadataNotSupported => 108
  | credentialOfferMustBeSupplied => 109
  | evaluteCredentialRequestOptionsNotSupplied _ => 110
  | cNonceIsExpired .. => 111
  | noProofInCredentialRequest => 112

/-- credential_issuer/error.rs:13 `AsRefStr`. -/
def CredentialIssuerError.name : CredentialIssuerError → Str
  | validationError _ => str! "ValidationError"
  | jwtError _ => str! "JwtError"
  | authorizedFlowNotSupported => str! "AuthorizedFlowNotSupported"
  | credentialIdNotInIssuerMetadata _ => str! "CredentialIdNotInIssuerMetadata"
  | invalidCredentialOfferEncoding _ => str! "InvalidCredentialOfferEncoding"
  | invalidRequestedCredential .. => str! "InvalidRequestedCredential"
  | expiredCNonce .. => str! "ExpiredCNonce"
  | credentialAndAcceptanceTokenSupplied => str! "CredentialAndAcceptanceTokenSupplied"
  | authorizationServerMetadataNotSupported => str! "AuthorizationServerMetadataNotSupported"
  | credentialOfferMustBeSupplied => str! "CredentialOfferMustBeSupplied"
  | evaluteCredentialRequestOptionsNotSupplied _ =>
    str! "EvaluteCredentialRequestOptionsNotSupplied"
  | cNonceIsExpired .. => str! "CNonceIsExpired"
  | noProofInCredentialRequest => str! "NoProofInCredentialRequest"

/-- credential_issuer/error.rs:17-92 `Display`. -/
def CredentialIssuerError.description (x : Ext) : CredentialIssuerError → Str
  | validationError e => e.description
  | jwtError e => e.description x
  | authorizedFlowNotSupported => str! "The Authorized flow is currently not supported"
  | credentialIdNotInIssuerMetadata id =>
    str! "The id `" ++ id ++ str! "` does not refer to a credential format inside the issuer metadata"
  | invalidCredentialOfferEncoding _ => str! "Could not url-encode the credential"
  | invalidRequestedCredential .. => str! "Requested credential not found in issuer metadata"
  | expiredCNonce .. => str! "`c_nonce_expires_in` is not valid anymore."
  | credentialAndAcceptanceTokenSupplied =>
    str! "Credential and acceptance token cannot both be supplied for the success response"
  | authorizationServerMetadataNotSupported =>
    str! "Authorization server metadata is not yet supported"
  | credentialOfferMustBeSupplied =>
    str! "Credential offer must be supplied, other flows are not supported yet"
  | evaluteCredentialRequestOptionsNotSupplied _ =>
    str! "evaluate credential request called without options, but were needed"
  | cNonceIsExpired n e =>
    str! "c_nonce expires at " ++ x.dispTime e ++ str! " which is before " ++ x.dispTime n
  | noProofInCredentialRequest => str! "The credential request does not contain a JWT proof"

/-- credential_issuer/error.rs:13-94 derived `Serialize`, untagged. -/
def CredentialIssuerError.ser (x : Ext) : CredentialIssuerError → Json
  | validationError e => e.ser
  | jwtError e => e.ser x
  | authorizedFlowNotSupported => .null
  | credentialIdNotInIssuerMetadata id => .obj [(str! "id", .str id)]
  | invalidCredentialOfferEncoding m => .obj [(str! "error_message", .str m)]
  | invalidRequestedCredential r s =>
    .obj [(str! "requested_credential", r.ser),
      (str! "supported_formats", serVec CredentialFormatProfile.ser s)]
  | expiredCNonce n e =>
    .obj [(str! "now", .str (x.showTime n)),
      (str! "expires_in", serOpt (fun t => .str (x.showTime t)) e)]
  | credentialAndAcceptanceTokenSupplied => .null
  | authorizationServerMetadataNotSupported => .null
  | credentialOfferMustBeSupplied => .null
  | evaluteCredentialRequestOptionsNotSupplied r => .obj [(str! "reason", .str r)]
  | cNonceIsExpired n e =>
    .obj [(str! "now", .str (x.showTime n)), (str! "expiry_timestamp", .str (x.showTime e))]
  | noProofInCredentialRequest => .null

/-- error.rs:15-31 `ErrorInformation`. -/
structure ErrorInformation where
  code : UInt32
  name : Str
  description : Str
  additionalInformation : Option Json
deriving DecidableEq, Repr

/-- error.rs:46-58 `ErrorInformation::new`. -/
def ErrorInformation.new (code : UInt32) (name description : Str) (additional : Option Json) :
    ErrorInformation := ⟨code, name, description, additional⟩

/-- error.rs:15-31 derived `Serialize`. -/
def ErrorInformation.ser (i : ErrorInformation) : Json :=
  .obj ([(str! "code", .num i.code.toNat), (str! "name", .str i.name),
    (str! "description", .str i.description)]
    ++ skipNone (str! "additional_information") id i.additionalInformation)

/-- error.rs:33-41 `Display`: the serialisation cannot fail. -/
def ErrorInformation.display (i : ErrorInformation) : Str := i.ser.print

/-- macros.rs:39-46 `information()` for validate.rs:20; `serde_json::to_value` normalises. -/
def ValidationError.information (e : ValidationError) : ErrorInformation :=
  .new e.code e.name e.description (some (value e.ser))

/-- macros.rs:39-46 for jwt/error.rs:160. -/
def JwtError.information (x : Ext) (e : JwtError) : ErrorInformation :=
  .new e.code e.name (e.description x) (some (value (e.ser x)))

/-- macros.rs:39-46 for access_token/error.rs:72. -/
def AccessTokenError.information (e : AccessTokenError) : ErrorInformation :=
  .new e.code e.name e.description (some (value e.ser))

/-- macros.rs:39-46 for credential_issuer/error.rs:96. -/
def CredentialIssuerError.information (x : Ext) (e : CredentialIssuerError) : ErrorInformation :=
  .new e.code e.name (e.description x) (some (value (e.ser x)))

/-- macros.rs:10-25 `information()` in the form of `error_impl!` for errors without a result type, which none of the
four enums uses: a value `null` is left out. Serialising cannot fail. -/
def informationOmitting (code : UInt32) (name description : Str) (ser : Json) : ErrorInformation :=
  .new code name description (if value ser = .null then none else some (value ser))

end Oid4vci
