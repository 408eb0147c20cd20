import Verif.Model.Issuer

/-! access_token/mod.rs -/

namespace Oid4vci

open Serde

/-- access_token/mod.rs:79-99 `GrantType`. -/
inductive GrantType where
  | authorizedCodeFlow
  | preAuthorizedCodeFlow (preAuthorizedCode : Str) (userPin : Option UInt64)
deriving DecidableEq, Repr

/-- Integer logarithm to base 10 with a bound on the number of divisions. -/
def ilog10Aux : Nat → Nat → Nat
  | 0, _ => 0
  | fuel + 1, n => if n < 10 then 0 else ilog10Aux fuel (n / 10) + 1

/-- `u64::checked_ilog10` (access_token/mod.rs:108): `None` for zero; a `u64` has at most 20 digits. -/
def checkedIlog10 (n : UInt64) : Option Nat := if n = 0 then none else some (ilog10Aux 20 n.toNat)

/-- access_token/mod.rs:101-122 `GrantType::validate`. -/
def GrantType.validate : GrantType → ValidationResult Unit
  | authorizedCodeFlow => .ok ()
  | preAuthorizedCodeFlow _ pin =>
    match pin with
    | some pin =>
      let max := 8
      let length := (checkedIlog10 pin).getD 0
      if length > max then
        .err (.any (str! "user pin exeeded length. Maximum is " ++ Json.natDigits max
          ++ str! ", supplied is " ++ Json.natDigits length))
      else .ok ()
    | none => .ok ()

/-- access_token/mod.rs:126-129 `AccessTokenRequest`. -/
structure AccessTokenRequest where
  grantType : GrantType
deriving DecidableEq, Repr

/-- access_token/mod.rs:131-137. -/
def AccessTokenRequest.validate (r : AccessTokenRequest) : ValidationResult Unit := do
  r.grantType.validate
  .ok ()

/-- access_token/mod.rs:141-144 `EvaluateAccessTokenRequestOptions`. -/
structure EvaluateAccessTokenRequestOptions where
  expectedUserPin : Option UInt64
deriving DecidableEq, Repr

namespace AccessToken

/-- access_token/mod.rs:166-175: the closure `validate_authorized_code_flow`. -/
def validateAuthorizedCodeFlow (_ : AuthorizedCodeFlow) : GrantType → AccessTokenResult Unit
  | .authorizedCodeFlow => .ok ()
  | .preAuthorizedCodeFlow .. =>
    .err (.invalidGrantType (str! "pre_authorized_code_flow") [str! "authorized_code_flow"])

/-- access_token/mod.rs:177-213: the closure `validate_pre_authorized_code_flow`. -/
def validatePreAuthorizedCodeFlow (options : Option EvaluateAccessTokenRequestOptions)
    (p : PreAuthorizedCodeFlow) : GrantType → AccessTokenResult Unit
  | .authorizedCodeFlow =>
    .err (.invalidGrantType (str! "authorized_code_flow") [str! "pre_authorized_code_flow"])
  | .preAuthorizedCodeFlow code pin => do
    match pin with
    | some pin => do
      let expected ← Res.okOr (options.bind (·.expectedUserPin))
        (.optionsAreRequiredForEvaluation (str! "user_pin was supplied in the access token request"))
      if pin ≠ expected then .err .userPinMismatch else .ok ()
    | none => .ok ()
    let shouldPinBeSupplied := p.userPinRequired.getD false
    let doesCodeMatch := decide (p.code = code)
    let isValid := (pin.isSome == shouldPinBeSupplied) && doesCodeMatch
    if isValid then .ok ()
    else .err (.invalidPreAuthorizedCodeFlowValues shouldPinBeSupplied doesCodeMatch)

/-- access_token/mod.rs:155-255 `evaluate_access_token_request`. -/
def evaluateAccessTokenRequest (r : AccessTokenRequest) (offer : Option CredentialOffer)
    (options : Option EvaluateAccessTokenRequestOptions) : AccessTokenResult Unit := do
  r.validate.mapErr .validationError
  if r.grantType = .authorizedCodeFlow then .err .authorizedFlowNotSupported
  else
    match offer with
    | some o =>
      match o.grants.authorizedCodeFlow, o.grants.preAuthorizedCodeFlow with
      | none, none => .err .noFlowSupportedInCredentialOffer
      | none, some p => validatePreAuthorizedCodeFlow options p r.grantType
      | some a, none => validateAuthorizedCodeFlow a r.grantType
      | some a, some p =>
        match validateAuthorizedCodeFlow a r.grantType,
            validatePreAuthorizedCodeFlow options p r.grantType with
        | .err ae, .err pe => .err (.invalidAuthorizedAndPreAuthorizedCodeFlow ae pe)
        | _, _ => .ok ()
    | none => .err .credentialOfferMustBeSupplied

end AccessToken

/-- access_token/mod.rs:32-64 `AccessTokenSuccessResponse`. -/
structure AccessTokenSuccessResponse where
  accessToken : Str
  tokenType : AccessTokenType
  expiresIn : Option UInt32
  scope : Option Str
  cNonce : Option Str
  cNonceExpiresIn : Option UInt32
  authorizationPending : Option Bool
  interval : Option UInt32
deriving DecidableEq, Repr

/-- access_token/mod.rs:66-75 `validate`. -/
def AccessTokenSuccessResponse.validate (r : AccessTokenSuccessResponse) : ValidationResult Unit :=
  if r.cNonce.isNone && r.cNonceExpiresIn.isSome then
    .err (.any (str! "c_nonce_expires_in is provided, but c_nonce is not"))
  else .ok ()

/-- access_token/mod.rs:284-306 `create_access_token_success_response`; `now` is `Utc::now()`. -/
def AccessToken.createAccessTokenSuccessResponse (now : Time) (accessToken : Str)
    (tokenType : AccessTokenType) (expiresIn : Option UInt32) (scope : Option Str)
    (cNonce : Option Str) (cNonceExpiresIn : Option UInt32) (authorizationPending : Option Bool)
    (interval : Option UInt32) : AccessTokenResult (AccessTokenSuccessResponse × Time) :=
  .ok (⟨accessToken, tokenType, expiresIn, scope, cNonce, cNonceExpiresIn, authorizationPending,
    interval⟩, now)

/-! ### Serialisation -/

/-- A `u32` as JSON. -/
def serU32 (n : UInt32) : Json := .num n.toNat

/-- A `u64` as JSON. -/
def serU64 (n : UInt64) : Json := .num n.toNat

/-- access_token/mod.rs:31-64 derived `Serialize`. -/
def AccessTokenSuccessResponse.ser (r : AccessTokenSuccessResponse) : Json :=
  .obj [(str! "access_token", .str r.accessToken), (str! "token_type", r.tokenType.ser),
    (str! "expires_in", serOpt serU32 r.expiresIn), (str! "scope", serOpt .str r.scope),
    (str! "c_nonce", serOpt .str r.cNonce),
    (str! "c_nonce_expires_in", serOpt serU32 r.cNonceExpiresIn),
    (str! "authorization_pending", serOpt .bool r.authorizationPending),
    (str! "interval", serOpt serU32 r.interval)]

/-- access_token/mod.rs:31-64 derived `Deserialize`. -/
def AccessTokenSuccessResponse.de (j : Json) : Option AccessTokenSuccessResponse :=
  match struct [str! "access_token", str! "token_type", str! "expires_in", str! "scope",
      str! "c_nonce", str! "c_nonce_expires_in", str! "authorization_pending", str! "interval"] j with
  | some [token, type, expires, scope, nonce, nonceExpires, pending, interval] => do
    let token ← req Serde.string token
    let type ← req AccessTokenType.de type
    let expires ← opt Serde.u32 expires
    let scope ← opt Serde.string scope
    let nonce ← opt Serde.string nonce
    let nonceExpires ← opt Serde.u32 nonceExpires
    let pending ← opt Serde.bool pending
    let interval ← opt Serde.u32 interval
    some ⟨token, type, expires, scope, nonce, nonceExpires, pending, interval⟩
  | _ => none

/-- access_token/mod.rs:31-64 derived `Deserialize`: the members it reads. -/
def AccessTokenSuccessResponse.shape : Shape :=
  .struct [(str! "access_token", .any), (str! "token_type", .any), (str! "expires_in", .any),
    (str! "scope", .any), (str! "c_nonce", .any), (str! "c_nonce_expires_in", .any),
    (str! "authorization_pending", .any), (str! "interval", .any)]

/-- `serde_json::from_str::<AccessTokenSuccessResponse>`. -/
def AccessTokenSuccessResponse.fromJson (s : Str) : Option AccessTokenSuccessResponse :=
  (Json.see AccessTokenSuccessResponse.shape s).bind AccessTokenSuccessResponse.de

/-- access_token/mod.rs:79-99 derived `Serialize`, internally tagged with `grant_type`. -/
def GrantType.ser : GrantType → Json
  | authorizedCodeFlow => .obj [(str! "grant_type", .str (str! "authorization_code"))]
  | preAuthorizedCodeFlow code pin =>
    .obj [(str! "grant_type", .str (str! "urn:ietf:params:oauth:grant-type:pre-authorized_code")),
      (str! "pre_authorized_code", .str code), (str! "user_pin", serOpt serU64 pin)]

/-- The variants' serde names (access_token/mod.rs:83,86). -/
def GrantType.variantNames : List Str :=
  [str! "authorization_code", str! "urn:ietf:params:oauth:grant-type:pre-authorized_code"]

/-- The unit variant: remaining members are ignored, remaining array elements are not allowed
(serde's `InternallyTaggedUnitVisitor`). -/
def GrantType.deUnit : Json → Option GrantType
  | .obj _ => some authorizedCodeFlow
  | .arr [] => some authorizedCodeFlow
  | _ => none

/-- The content of `PreAuthorizedCodeFlow` (access_token/mod.rs:87-98). -/
def GrantType.dePre (c : Json) : Option GrantType :=
  match struct [str! "pre_authorized_code", str! "user_pin"] c with
  | some [code, pin] => do
    let code ← req Serde.string code
    let pin ← opt Serde.u64 pin
    some (preAuthorizedCodeFlow code pin)
  | _ => none

/-- access_token/mod.rs:79-99 derived `Deserialize`, internally tagged. -/
def GrantType.de (j : Json) : Option GrantType :=
  match tagged (str! "grant_type") j with
  | none => none
  | some (t, c) =>
    match variant variantNames false t with
    | some 0 => deUnit c
    | some 1 => dePre c
    | _ => none

/-- access_token/mod.rs:125-129 derived `Serialize`. -/
def AccessTokenRequest.ser (r : AccessTokenRequest) : Json :=
  .obj [(str! "grant_type", r.grantType.ser)]

/-- access_token/mod.rs:125-129 derived `Deserialize`. -/
def AccessTokenRequest.de (j : Json) : Option AccessTokenRequest :=
  match struct [str! "grant_type"] j with
  | some [g] => (req GrantType.de g).map fun g => ⟨g⟩
  | _ => none

/-- access_token/mod.rs:125-129 derived `Deserialize`: the member it reads, itself internally tagged (lines
79-99), that is read completely. -/
def AccessTokenRequest.shape : Shape := .struct [(str! "grant_type", .any)]

/-- `serde_json::from_str::<AccessTokenRequest>`. -/
def AccessTokenRequest.fromJson (s : Str) : Option AccessTokenRequest :=
  (Json.see AccessTokenRequest.shape s).bind AccessTokenRequest.de

end Oid4vci
