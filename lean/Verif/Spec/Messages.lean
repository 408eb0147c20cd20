import Verif.Spec.Response

/-! Specification of the messages of the errors: the `#[error("…")]` attributes of the four enums, by
numeric code, and how the fields are put in. -/

namespace Oid4vci.Spec

/-- The texts of the `#[error("…")]` attributes by discriminant, transcribed: validate.rs:9,
credential_issuer/error.rs:26-92, jwt/error.rs:13-147, access_token/error.rs:19-68. The variants
`#[error(transparent)]` (100, 101 and 400) have none. -/
def messages : List (Nat × Str) :=
  [(1, str! "An error occurred during validation, serialization or deserialization"),
   (102, str! "The Authorized flow is currently not supported"),
   (103, str! "The id `{id}` does not refer to a credential format inside the issuer metadata"),
   (104, str! "Could not url-encode the credential"),
   (105, str! "Requested credential not found in issuer metadata"),
   (106, str! "`c_nonce_expires_in` is not valid anymore."),
   (107, str! "Credential and acceptance token cannot both be supplied for the success response"),
   (108, str! "Authorization server metadata is not yet supported"),
   (109, str! "Credential offer must be supplied, other flows are not supported yet"),
   (110, str! "evaluate credential request called without options, but were needed"),
   (111, str! "c_nonce expires at {expiry_timestamp} which is before {now}"),
   (112, str! "The credential request does not contain a JWT proof"),
   (300, str! "An error occurred while validating"),
   (301, str! "JWT is not yet valid. Valid from: {valid_from} and checked at {now}"),
   (302, str! "JWT is not valid anymore. Valid until: {valid_until} and checked at {now}"),
   (303, str! "`iss` field in the body mismatched with provided client id"),
   (304, str! "No `kid`, `jwk` or `x5c` found in the JWT header"),
   (305, str! "No did document provided when the `kid` is a did"),
   (306, str! "Unable to transform did, from `kid`, into a Did type"),
   (307, str! "Unable to find the verification method the did, `kid`, was referring to"),
   (308, str! "Unable to map the verification method to a JWK"),
   (309, str! "Unable to convert '{original_string}' into a valid Jose Item"),
   (310, str! "supplied algorithm, '{algorithm}' is not valid"),
   (311, str! "JWK with algorithm of 'edDSA' has no x coordinate"),
   (312, str! "JWK with algorithm of '{algorithm}' has no 'x' or 'y' coordinate"),
   (313, str! "Signature was expected but not found in the JWT"),
   (314, str! "Unsupported key type `{key_type}` found in JWT header"),
   (315, str! "Expected nonce was not found in the JWT"),
   (316, str! "`aud` field in the body mismatched with provided credential issuer url"),
   (401, str! "Invalid requested grant type"),
   (402, str! "The Authorized flow is currently not supported"),
   (403, str! "Supplied credential offer has no authorized, or pre-authorized, code flow"),
   (404, str! "Requested pre-authorized code flow has invalid values"),
   (405, str! "Both the authorized and pre-authorized are incorrect"),
   (406, str! "Options are required when evaluating the access token request"),
   (407, str! "Provided user pin does not match user pin from access token request"),
   (409, str! "Access token request is not yet supported without a credential offer")]

/-- The discriminants of each enum in declaration order, transcribed: validate.rs:14, jwt/error.rs:14-154,
access_token/error.rs:17-69 (408 is skipped), credential_issuer/error.rs:18-93. -/
def discriminants : AnyError → List Nat
  | .validation _ => [1]
  | .jwt _ => [300, 301, 302, 303, 304, 305, 306, 307, 308, 309, 310, 311, 312, 313, 314, 315, 316]
  | .token _ => [400, 401, 402, 403, 404, 405, 406, 407, 409]
  | .issuer _ => [100, 101, 102, 103, 104, 105, 106, 107, 108, 109, 110, 111, 112]

/-- The first value of a key. -/
def valueOf {α β : Type} [DecidableEq α] (k : α) : List (α × β) → Option β
  | [] => none
  | (k', v) :: l => if k' = k then some v else valueOf k l

/-- Fill in a format string: `{name}` stands for the displayed field of that name. The second
argument is the name being read, if any. -/
def fillIn (fields : List (Str × Str)) : Option Str → Str → Option Str
  | none, [] => some []
  | some _, [] => none
  | none, c :: s => if c = '{' then fillIn fields (some []) s else (fillIn fields none s).map (c :: ·)
  | some n, c :: s =>
    if c = '}' then
      match valueOf n.reverse fields with
      | some v => (fillIn fields none s).map (v ++ ·)
      | none => none
    else fillIn fields (some (c :: n)) s

/-- The fields with which an error of any enum is displayed, under the names of the declarations. -/
def shownFields (x : Ext) : AnyError → List (Str × Str)
  | .jwt (.notYetValid f n) => [(str! "valid_from", x.dispTime f), (str! "now", x.dispTime n)]
  | .jwt (.notValidAnymore u n) => [(str! "valid_until", x.dispTime u), (str! "now", x.dispTime n)]
  | .jwt (.unableToTransformIntoJoseItem o m) =>
    [(str! "original_string", o), (str! "serde_message", m)]
  | .jwt (.unsupportedAlgorithm a) => [(str! "algorithm", a)]
  | .jwt (.eSXXXHasNoXOrYCoordinate a _ _) => [(str! "algorithm", a)]
  | .jwt (.unsupportedKeyTypeInJwtHeader n t) => [(str! "key_name", n), (str! "key_type", t)]
  | .issuer (.credentialIdNotInIssuerMetadata i) => [(str! "id", i)]
  | .issuer (.cNonceIsExpired n e) =>
    [(str! "now", x.dispTime n), (str! "expiry_timestamp", x.dispTime e)]
  | _ => []

/-- The error whose message is shown: a transparent variant shows the message of what it carries. -/
def messageSource : AnyError → AnyError
  | .token (.validationError e) => .validation e
  | .issuer (.validationError e) => .validation e
  | .issuer (.jwtError e) => .jwt e
  | a => a

end Oid4vci.Spec
