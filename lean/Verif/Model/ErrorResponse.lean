import Verif.Model.Errors

/-!
error_response.rs, access_token/error_response.rs, credential_issuer/error_code.rs,
types/token_type.rs, return_object.rs
-/

namespace Oid4vci

open Serde

/-- access_token/error_response.rs:8-63 `AccessTokenErrorCode`. -/
inductive AccessTokenErrorCode where
  | invalidRequest | invalidGrant | invalidClient | accessDenied | unsupportedResponseType
  | invalidScope | serverError | temporarilyUnavailable
deriving DecidableEq, Repr

namespace AccessTokenErrorCode

/-- access_token/error_response.rs:65-78 `From<AccessTokenErrorCode> for &str`. -/
def toStr : AccessTokenErrorCode → Str
  | invalidRequest => str! "invalid_request"
  | invalidClient => str! "invalid_client"
  | invalidGrant => str! "invalid_grant"
  | accessDenied => str! "access_denied"
  | unsupportedResponseType => str! "unsupported_response_type"
  | invalidScope => str! "invalid_scope"
  | serverError => str! "server_error"
  | temporarilyUnavailable => str! "temporarily_unavailable"

/-- access_token/error_response.rs:80-98 `TryFrom<String>`. -/
def tryFrom (s : Str) : ValidationResult AccessTokenErrorCode :=
  if s = str! "invalid_request" then .ok invalidRequest
  else if s = str! "invalid_client" then .ok invalidClient
  else if s = str! "invalid_grant" then .ok invalidGrant
  else if s = str! "access_denied" then .ok accessDenied
  else if s = str! "unsupported_response_type" then .ok unsupportedResponseType
  else if s = str! "invalid_scope" then .ok invalidScope
  else if s = str! "server_error" then .ok serverError
  else if s = str! "temporarily_unavailable" then .ok temporarilyUnavailable
  else .err (.any (str! "Invalid access token error code"))

/-- access_token/error_response.rs:8 derived `Serialize`: the variant name (no `rename_all`). -/
def ser : AccessTokenErrorCode → Json
  | invalidRequest => .str (str! "InvalidRequest")
  | invalidGrant => .str (str! "InvalidGrant")
  | invalidClient => .str (str! "InvalidClient")
  | accessDenied => .str (str! "AccessDenied")
  | unsupportedResponseType => .str (str! "UnsupportedResponseType")
  | invalidScope => .str (str! "InvalidScope")
  | serverError => .str (str! "ServerError")
  | temporarilyUnavailable => .str (str! "TemporarilyUnavailable")

end AccessTokenErrorCode

/-- credential_issuer/error_code.rs:6-24 `CredentialIssuerErrorCode`. -/
inductive CredentialIssuerErrorCode where
  | invalidRequest | invalidToken | unsupportedCredentialType | unsupportedCredentialFormat
  | invalidOrMissingProof
deriving DecidableEq, Repr

namespace CredentialIssuerErrorCode

/-- credential_issuer/error_code.rs:26-38 `From<CredentialIssuerErrorCode> for &str`. -/
def toStr : CredentialIssuerErrorCode → Str
  | invalidRequest => str! "invalid_request"
  | invalidToken => str! "invalid_token"
  | unsupportedCredentialType => str! "unsupported_credential_type"
  | unsupportedCredentialFormat => str! "unsupported_credential_format"
  | invalidOrMissingProof => str! "invalid_or_missing_proof"

/-- credential_issuer/error_code.rs:40-59 `TryFrom<String>`. -/
def tryFrom (s : Str) : ValidationResult CredentialIssuerErrorCode :=
  if s = str! "invalid_request" then .ok invalidRequest
  else if s = str! "invalid_token" then .ok invalidToken
  else if s = str! "unsupported_credential_type" then .ok unsupportedCredentialType
  else if s = str! "unsupported_credential_format" then .ok unsupportedCredentialFormat
  else if s = str! "invalid_or_missing_proof" then .ok invalidOrMissingProof
  else .err (.any (str! "Invalid error code: " ++ s))

/-- credential_issuer/error_code.rs:6 derived `Serialize`: the variant name. -/
def ser : CredentialIssuerErrorCode → Json
  | invalidRequest => .str (str! "InvalidRequest")
  | invalidToken => .str (str! "InvalidToken")
  | unsupportedCredentialType => .str (str! "UnsupportedCredentialType")
  | unsupportedCredentialFormat => .str (str! "UnsupportedCredentialFormat")
  | invalidOrMissingProof => .str (str! "InvalidOrMissingProof")

end CredentialIssuerErrorCode

/-- types/token_type.rs:6-10 `AccessTokenType`. -/
inductive AccessTokenType where
  | bearer
deriving DecidableEq, Repr

namespace AccessTokenType

/-- types/token_type.rs:12-18 `From<AccessTokenType> for &str`. -/
def toStr : AccessTokenType → Str
  | bearer => str! "Bearer"

/-- types/token_type.rs:20-31 `TryFrom<String>`. -/
def tryFrom (s : Str) : ValidationResult AccessTokenType :=
  if s = str! "Bearer" then .ok bearer else .err (.any (str! "Invalid access token type"))

/-- types/token_type.rs:6 derived `Serialize`. -/
def ser : AccessTokenType → Json
  | bearer => .str (str! "Bearer")

/-- types/token_type.rs:6 derived `Deserialize`: a string, or `{"Bearer": null}`. -/
def de : Json → Option AccessTokenType
  | .str s => if s = str! "Bearer" then some bearer else none
  | .obj [(k, .null)] => if k = str! "Bearer" then some bearer else none
  | _ => none

end AccessTokenType

/-- error_response.rs:4-23 `ErrorResponse<T>`. -/
structure ErrorResponse (T : Type) where
  error : T
  errorDescription : Option Str
  errorUri : Option Str
  errorAdditionalDetails : Option Json
deriving DecidableEq, Repr

/-- error_response.rs:21-22: the members a flattened `Option<serde_json::Value>` contributes; `none`
is a serialisation error (`can only flatten structs and maps`). Whether `Some(Value::Null)` is an
error depends on the serde version and is left open (`Ext.flattenNullOk`). -/
def flattenDetails (x : Ext) : Option Json → Option (List (Str × Json))
  | none => some []
  | some (.obj kvs) => some kvs
  | some .null => if x.flattenNullOk then some [] else none
  | some _ => none

/-- error_response.rs:4 derived `Serialize`; `none` is a serialisation error. -/
def ErrorResponse.ser {T : Type} (x : Ext) (serT : T → Json) (r : ErrorResponse T) : Option Json :=
  match flattenDetails x r.errorAdditionalDetails with
  | none => none
  | some ms => some (.obj ([(str! "error", serT r.error),
      (str! "error_description", serOpt .str r.errorDescription),
      (str! "error_uri", serOpt .str r.errorUri)] ++ ms))

/-- access_token/mod.rs:262-276 `create_access_token_error_response`. -/
def createAccessTokenErrorResponse (error : AccessTokenErrorCode) (description uri : Option Str)
    (details : Option Json) : AccessTokenResult (ErrorResponse AccessTokenErrorCode) :=
  .ok ⟨error, description, uri, details⟩

/-- credential_issuer/mod.rs:652-665 `create_credential_error_response`. -/
def createCredentialErrorResponse (error : CredentialIssuerErrorCode) (description uri : Option Str)
    (details : Option Json) : CredentialIssuerResult (ErrorResponse CredentialIssuerErrorCode) :=
  .ok ⟨error, description, uri, details⟩

/-- return_object.rs:5-21 `ReturnObject<T, E, W>`. -/
structure ReturnObject (T E W : Type) where
  info : Option T
  error : Option E
  warnings : Option (List W)
deriving DecidableEq, Repr

/-- return_object.rs:31-39 `add_warning`. -/
def ReturnObject.addWarning {T E W : Type} (r : ReturnObject T E W) (w : W) : ReturnObject T E W :=
  { r with warnings := some (r.warnings.getD [] ++ [w]) }

/-- macros.rs:60-76 `to_return_object`, for any of the result types; `information` is that error
type's `information()`. The argument is a Rust `Result` value, hence `Except` and not `Res`
(a panicking call yields no value to convert). -/
def toReturnObject {ε T : Type} (information : ε → ErrorInformation) :
    Except ε T → ReturnObject T ErrorInformation Str
  | .ok t => ⟨some t, none, none⟩
  | .error e => ⟨none, some (information e), none⟩

/-- return_object.rs:4-21 derived `Serialize`. -/
def ReturnObject.ser {T E W : Type} (fT : T → Json) (fE : E → Json) (fW : W → Json)
    (r : ReturnObject T E W) : Json :=
  .obj (skipNone (str! "info") fT r.info ++ skipNone (str! "error") fE r.error
    ++ skipNone (str! "warnings") (serVec fW) r.warnings)

end Oid4vci
