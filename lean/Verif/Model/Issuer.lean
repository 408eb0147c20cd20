import Verif.Base.Percent
import Verif.Model.Request
import Verif.Model.ErrorResponse

/-! credential_issuer/mod.rs -/

namespace Oid4vci

open Serde

/-- credential_issuer/mod.rs:34-42 `CredentialOrId`. -/
inductive CredentialOrId where
  | credentialId (id : Str)
  | credential (c : CredentialFormatProfile)
deriving DecidableEq, Repr

/-- credential_issuer/mod.rs:56-74 `CredentialOrId::resolve`. -/
def CredentialOrId.resolve (c : CredentialOrId) (m : CredentialIssuerMetadata) :
    CredentialIssuerResult CredentialFormatProfile :=
  match c with
  | .credential c => .ok c
  | .credentialId s =>
    match (m.credentialsSupported.find? fun c => decide (c.id = some s)).map
        CredentialSupported.format with
    | some f => .ok f
    | none => .err (.credentialIdNotInIssuerMetadata s)

/-- credential_issuer/mod.rs:78-79 `CredentialOrIds` (newtype around a vector). -/
abbrev CredentialOrIds := List CredentialOrId

/-- credential_issuer/mod.rs:93-103 `CredentialOrIds::resolve_all`. -/
def CredentialOrIds.resolveAll (m : CredentialIssuerMetadata) :
    CredentialOrIds → CredentialIssuerResult (List CredentialFormatProfile)
  | [] => .ok []
  | c :: cs => do
    let f ← c.resolve m
    let fs ← CredentialOrIds.resolveAll m cs
    .ok (f :: fs)

/-- credential_issuer/mod.rs:141-145 `AuthorizedCodeFlow`. -/
structure AuthorizedCodeFlow where
  issuerState : Option Str
deriving DecidableEq, Repr

/-- credential_issuer/mod.rs:148-166 `PreAuthorizedCodeFlow`. -/
structure PreAuthorizedCodeFlow where
  code : Str
  userPinRequired : Option Bool
deriving DecidableEq, Repr

/-- credential_issuer/mod.rs:266-280 `CredentialOfferGrants`. -/
structure CredentialOfferGrants where
  authorizedCodeFlow : Option AuthorizedCodeFlow
  preAuthorizedCodeFlow : Option PreAuthorizedCodeFlow
deriving DecidableEq, Repr

/-- credential_issuer/mod.rs:170-194 `CredentialOffer`. -/
structure CredentialOffer where
  credentialIssuer : Str
  credentials : CredentialOrIds
  grants : CredentialOfferGrants
deriving DecidableEq, Repr

/-- credential_issuer/mod.rs:205-210. -/
def CredentialOrIds.validate (_ : CredentialOrIds) : ValidationResult Unit := .ok ()

/-- credential_issuer/mod.rs:212-216. -/
def CredentialOfferGrants.validate (_ : CredentialOfferGrants) : ValidationResult Unit := .ok ()

/-- credential_issuer/mod.rs:196-203. -/
def CredentialOffer.validate (o : CredentialOffer) : ValidationResult Unit := do
  CredentialOrIds.validate o.credentials
  o.grants.validate
  .ok ()

/-! ### Serialisation of the offer -/

/-- credential_issuer/mod.rs:34-42 derived `Serialize`, untagged. -/
def CredentialOrId.ser : CredentialOrId → Json
  | credentialId s => .str s
  | credential c => c.ser

/-- credential_issuer/mod.rs:34-42 derived `Deserialize`, untagged (hence buffered). -/
def CredentialOrId.de (j : Json) : Option CredentialOrId :=
  match Serde.string j with
  | some s => some (.credentialId s)
  | none => (CredentialFormatProfile.de true j).map .credential

/-- credential_issuer/mod.rs:141-145 derived `Serialize`. -/
def AuthorizedCodeFlow.ser (a : AuthorizedCodeFlow) : Json :=
  .obj [(str! "issuer_state", serOpt .str a.issuerState)]

/-- credential_issuer/mod.rs:141-145 derived `Deserialize`. -/
def AuthorizedCodeFlow.de (j : Json) : Option AuthorizedCodeFlow :=
  match struct [str! "issuer_state"] j with
  | some [s] => (opt Serde.string s).map fun s => ⟨s⟩
  | _ => none

/-- credential_issuer/mod.rs:141-145 derived `Deserialize`: the members it reads. -/
def AuthorizedCodeFlow.shape : Shape := .struct [(str! "issuer_state", .any)]

/-- credential_issuer/mod.rs:148-166 derived `Serialize`. -/
def PreAuthorizedCodeFlow.ser (p : PreAuthorizedCodeFlow) : Json :=
  .obj ((str! "pre-authorized_code", .str p.code)
    :: skipNone (str! "user_pin_required") .bool p.userPinRequired)

/-- credential_issuer/mod.rs:148-166 derived `Deserialize`. -/
def PreAuthorizedCodeFlow.de (j : Json) : Option PreAuthorizedCodeFlow :=
  match struct [str! "pre-authorized_code", str! "user_pin_required"] j with
  | some [code, pin] => do
    let code ← req Serde.string code
    let pin ← opt Serde.bool pin
    some ⟨code, pin⟩
  | _ => none

/-- credential_issuer/mod.rs:148-166 derived `Deserialize`: the members it reads. -/
def PreAuthorizedCodeFlow.shape : Shape :=
  .struct [(str! "pre-authorized_code", .any), (str! "user_pin_required", .any)]

/-- credential_issuer/mod.rs:266-280 derived `Serialize`. -/
def CredentialOfferGrants.ser (g : CredentialOfferGrants) : Json :=
  .obj (skipNone (str! "authorization_code") AuthorizedCodeFlow.ser g.authorizedCodeFlow
    ++ skipNone (str! "urn:ietf:params:oauth:grant-type:pre-authorized_code")
      PreAuthorizedCodeFlow.ser g.preAuthorizedCodeFlow)

/-- credential_issuer/mod.rs:266-280 derived `Deserialize`. -/
def CredentialOfferGrants.de (j : Json) : Option CredentialOfferGrants :=
  match struct [str! "authorization_code",
      str! "urn:ietf:params:oauth:grant-type:pre-authorized_code"] j with
  | some [a, p] => do
    let a ← opt AuthorizedCodeFlow.de a
    let p ← opt PreAuthorizedCodeFlow.de p
    some ⟨a, p⟩
  | _ => none

/-- credential_issuer/mod.rs:266-280 derived `Deserialize`: the members it reads. -/
def CredentialOfferGrants.shape : Shape :=
  .struct [(str! "authorization_code", AuthorizedCodeFlow.shape),
    (str! "urn:ietf:params:oauth:grant-type:pre-authorized_code", PreAuthorizedCodeFlow.shape)]

/-- credential_issuer/mod.rs:170-194 derived `Serialize`. -/
def CredentialOffer.ser (o : CredentialOffer) : Json :=
  .obj [(str! "credential_issuer", .str o.credentialIssuer),
    (str! "credentials", serVec CredentialOrId.ser o.credentials),
    (str! "grants", o.grants.ser)]

/-- credential_issuer/mod.rs:170-194 derived `Deserialize`. -/
def CredentialOffer.de (j : Json) : Option CredentialOffer :=
  match struct [str! "credential_issuer", str! "credentials", str! "grants"] j with
  | some [issuer, creds, grants] => do
    let issuer ← req Serde.string issuer
    let creds ← req (vec CredentialOrId.de) creds
    let grants ← req CredentialOfferGrants.de grants
    some ⟨issuer, creds, grants⟩
  | _ => none

/-- credential_issuer/mod.rs:170-194 derived `Deserialize`: the members it reads; the entries of
`credentials` are untagged (lines 34-42), that is read completely. -/
def CredentialOffer.shape : Shape :=
  .struct [(str! "credential_issuer", .any), (str! "credentials", .vec .any),
    (str! "grants", CredentialOfferGrants.shape)]

/-- `serde_json::from_str::<CredentialOffer>`, what a wallet applies to the decoded parameter. -/
def CredentialOffer.fromJson (s : Str) : Option CredentialOffer :=
  (Json.see CredentialOffer.shape s).bind CredentialOffer.de

/-- credential_issuer/mod.rs:221-235 `CredentialOffer::new`. -/
def CredentialOffer.new (credentialIssuer : Str) (credentials : CredentialOrIds)
    (authorized : Option AuthorizedCodeFlow) (pre : Option PreAuthorizedCodeFlow) :
    CredentialOffer := ⟨credentialIssuer, credentials, ⟨authorized, pre⟩⟩

/-- credential_issuer/mod.rs:242-246 `url_encode`. Serialisation cannot fail (string keys only). -/
def CredentialOffer.urlEncode (o : CredentialOffer) : CredentialIssuerResult Str :=
  .ok (urlencode o.ser.print)

/-- credential_issuer/mod.rs:251-257 `CredentialOrAcceptanceToken`. -/
inductive CredentialOrAcceptanceToken where
  | credential (c : CredentialFormatProfile)
  | acceptanceToken (t : Str)
deriving DecidableEq, Repr

/-- credential_issuer/mod.rs:287-292 `PreEvaluateCredentialRequestResponse`. -/
structure PreEvaluateCredentialRequestResponse where
  did : Option Str
deriving DecidableEq, Repr

/-- credential_issuer/mod.rs:309-322 `ProofOfPossession`. -/
structure ProofOfPossession where
  algorithm : ProofJwtAlgorithm
  publicKey : Bytes
  message : Bytes
  signature : Bytes
deriving DecidableEq, Repr

/-- credential_issuer/mod.rs:296-305 `CredentialIssuerEvaluateRequestResponse`. -/
structure CredentialIssuerEvaluateRequestResponse where
  proofOfPossession : Option ProofOfPossession
  subjectId : Option Str
  credential : CredentialFormatProfile
deriving DecidableEq, Repr

/-- credential_issuer/mod.rs:326-350 `CredentialSuccessResponse`. -/
structure CredentialSuccessResponse where
  format : Str
  credential : Option CredentialFormatProfileOrEncoded
  acceptanceToken : Option Str
  cNonce : Option Str
  cNonceExpiresIn : Option UInt32
deriving DecidableEq, Repr

/-- credential_issuer/mod.rs:325-350 derived `Serialize`. -/
def CredentialSuccessResponse.ser (r : CredentialSuccessResponse) : Json :=
  .obj [(str! "format", .str r.format),
    (str! "credential", serOpt CredentialFormatProfileOrEncoded.ser r.credential),
    (str! "acceptance_token", serOpt .str r.acceptanceToken),
    (str! "c_nonce", serOpt .str r.cNonce),
    (str! "c_nonce_expires_in", serOpt (fun n => .num n.toNat) r.cNonceExpiresIn)]

/-- credential_issuer/mod.rs:325-350 derived `Deserialize`. -/
def CredentialSuccessResponse.de (j : Json) : Option CredentialSuccessResponse :=
  match struct [str! "format", str! "credential", str! "acceptance_token", str! "c_nonce",
      str! "c_nonce_expires_in"] j with
  | some [format, credential, token, nonce, expires] => do
    let format ← req Serde.string format
    let credential ← opt CredentialFormatProfileOrEncoded.de credential
    let token ← opt Serde.string token
    let nonce ← opt Serde.string nonce
    let expires ← opt Serde.u32 expires
    some ⟨format, credential, token, nonce, expires⟩
  | _ => none

/-- credential_issuer/mod.rs:325-350 derived `Deserialize`: the members it reads; `credential` is an
enum with content (types/credential.rs:168-175), read completely. -/
def CredentialSuccessResponse.shape : Shape :=
  .struct [(str! "format", .any), (str! "credential", .any), (str! "acceptance_token", .any),
    (str! "c_nonce", .any), (str! "c_nonce_expires_in", .any)]

/-- `serde_json::from_str::<CredentialSuccessResponse>`. -/
def CredentialSuccessResponse.fromJson (s : Str) : Option CredentialSuccessResponse :=
  (Json.see CredentialSuccessResponse.shape s).bind CredentialSuccessResponse.de

/-- credential_issuer/mod.rs:355-365 `CNonce`. -/
structure CNonce where
  cNonce : Str
  cNonceExpiresIn : Option UInt32
deriving DecidableEq, Repr

/-- credential_issuer/mod.rs:395-404 `CNonceOptions`. -/
structure CNonceOptions where
  cNonceExpiresIn : UInt32
  expectedCNonce : Str
  cNonceCreatedAt : Time
deriving DecidableEq, Repr

/-- credential_issuer/mod.rs:369-391 `EvaluateCredentialRequestOptions`. -/
structure EvaluateCredentialRequestOptions where
  cNonce : Option CNonceOptions
  clientId : Option Str
deriving DecidableEq, Repr

namespace CredentialIssuer

/-- credential_issuer/mod.rs:455-457: the prefix of the offer URL. -/
def offerUrlPrefix (endpoint : Option Str) : Str :=
  match endpoint with
  | none => str! "openid-credential-offer://"
  | some u => u ++ ['?']

/-- credential_issuer/mod.rs:419-463 `create_offer`. The conversion `Into<CredentialOrIds>` of the
argument (lines 106-138) maps each element to its `CredentialOrId`; the model starts from there. -/
def createOffer (m : CredentialIssuerMetadata) (credentials : CredentialOrIds)
    (endpoint : Option Str) (authorized : Option AuthorizedCodeFlow)
    (pre : Option PreAuthorizedCodeFlow) : CredentialIssuerResult (CredentialOffer × Str) := do
  m.validate.mapErr .validationError
  if authorized.isSome then .err .authorizedFlowNotSupported
  else
    let _ ← CredentialOrIds.resolveAll m credentials
    let offer := CredentialOffer.new m.credentialIssuer credentials authorized pre
    let encoded ← offer.urlEncode
    .ok (offer, offerUrlPrefix endpoint ++ str! "credential_offer=" ++ encoded)

/-- credential_issuer/mod.rs:473-487 `pre_evaluate_credential_request`. -/
def preEvaluateCredentialRequest (x : Ext) (r : CredentialRequest) :
    CredentialIssuerResult PreEvaluateCredentialRequestResponse := do
  (r.validate x).mapErr .validationError
  match r.proof with
  | some p => do
    let jwt ← (ProofJwt.fromStr x p.jwt).mapErr .validationError
    jwt.validate.mapErr .validationError
    let did ← (jwt.extractDid x).mapErr .jwtError
    .ok ⟨did⟩
  | none => .ok ⟨none⟩

/-- credential_issuer/mod.rs:519-533: the nonce lifetime check. -/
def checkNonceLifetime (options : Option EvaluateCredentialRequestOptions) (now : Time) :
    CredentialIssuerResult Unit :=
  match options.bind (·.cNonce) with
  | some c => do
    let expiry ← Time.addSeconds c.cNonceCreatedAt c.cNonceExpiresIn
    if expiry < now then .err (.cNonceIsExpired now expiry) else .ok ()
  | none => .ok ()

/-- credential_issuer/mod.rs:549-571 `should_validate_iss`. -/
def shouldValidateIss (options : Option EvaluateCredentialRequestOptions)
    (offer : CredentialOffer) : Bool :=
  match options with
  | some o =>
    let shouldValidate := o.clientId.isSome || offer.grants.authorizedCodeFlow.isSome
    let shouldNotValidate := o.clientId.isNone && offer.grants.preAuthorizedCodeFlow.isSome
    shouldValidate || !shouldNotValidate
  | none => false

/-- credential_issuer/mod.rs:500-596 `evaluate_credential_request`; `now` is the value of
`Utc::now()` on line 525. -/
def evaluateCredentialRequest (x : Ext) (now : Time) (m : CredentialIssuerMetadata)
    (r : CredentialRequest) (offer : Option CredentialOffer)
    (asMetadata : Option AuthorizationServerMetadata) (doc : Option x.Doc)
    (options : Option EvaluateCredentialRequestOptions) :
    CredentialIssuerResult CredentialIssuerEvaluateRequestResponse := do
  m.validate.mapErr .validationError
  let offer ← Res.okOr offer .credentialOfferMustBeSupplied
  offer.validate.mapErr .validationError
  match asMetadata with
  | some a => do
    a.validate.mapErr .validationError
    .err .authorizationServerMetadataNotSupported
  | none => do
    checkNonceLifetime options now
    match r.proof with
    | some p => do
      let jwt ← (ProofJwt.fromStr x p.jwt).mapErr .validationError
      jwt.validate.mapErr .validationError
      (jwt.checkNonce ((options.bind (·.cNonce)).map (·.expectedCNonce))).mapErr .jwtError
      if shouldValidateIss options offer then
        (jwt.checkIss (options.bind (·.clientId))).mapErr .jwtError
      else .ok ()
      (jwt.checkAud m.credentialIssuer).mapErr .jwtError
      let (publicKey, algorithm) ← (jwt.extractKeyAndAlg x doc).mapErr .jwtError
      let signature ← (jwt.extractSignature x).mapErr .jwtError
      let message ← (jwt.toSignableMessage x).mapErr .jwtError
      let subjectId ← (jwt.extractDid x).mapErr .jwtError
      .ok ⟨some ⟨algorithm, publicKey, message, signature⟩, subjectId, r.format⟩
    | none => .err .noProofInCredentialRequest

/-- credential_issuer/mod.rs:610-645 `create_credential_success_response`; `now` is `Utc::now()`. -/
def createCredentialSuccessResponse (x : Ext) (now : Time) (r : CredentialRequest)
    (c : Option CredentialOrAcceptanceToken) (nonce : Option CNonce) :
    CredentialIssuerResult (CredentialSuccessResponse × Time) := do
  (r.validate x).mapErr .validationError
  let (cNonce, expires) := match nonce with
    | some n => (some n.cNonce, n.cNonceExpiresIn)
    | none => (none, none)
  let (credential, token) ← match c with
    | some (.credential c) => do
      let c ← (CredentialFormatProfileOrEncoded.tryFrom c).mapErr .validationError
      .ok (some c, none)
    | some (.acceptanceToken t) => .ok (none, some t)
    | none => .ok (none, none)
  .ok (⟨r.format.getFormatName, credential, token, cNonce, expires⟩, now)

end CredentialIssuer

end Oid4vci
