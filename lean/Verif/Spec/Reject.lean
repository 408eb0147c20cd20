import Verif.Spec.Evaluate

/-!
The decision table of credential request evaluation: for every fault the error, and which checks come
before it.
-/

namespace Oid4vci.Spec

/-- The name under which an unusable key's algorithm is reported, in double quotes. -/
def reportedAlg (k : Jwk) : Str :=
  Json.printStr (match k.algorithm with
    | some a => a.name
    | none => str! "none")

/-- A key without usable bytes, and the error. -/
inductive KeyUnusable (k : Jwk) : JwtError → Prop
  | symmetricOrRsa : k.params = .other → KeyUnusable k (.unsupportedAlgorithm (reportedAlg k))
  | notEdDSA (px : Option Bytes) : k.params = .ec px → k.algorithm ≠ some ⟨str! "EdDSA"⟩ →
      KeyUnusable k (.unsupportedAlgorithm (reportedAlg k))
  | noX : k.params = .ec none → k.algorithm = some ⟨str! "EdDSA"⟩ →
      KeyUnusable k .edDSAHasNoXCoordinate

/-- The header does not lead to a key, and the error. -/
inductive KeyRejected (x : Ext) (h : ProofJwtHeader) (doc : Option x.Doc) : JwtError → Prop
  | noKey : h.additionalHeader = none → KeyRejected x h doc .noKeyFoundInProof
  | x5c (k : Str) : h.additionalHeader = some (.x5c k) →
      KeyRejected x h doc (.unsupportedKeyTypeInJwtHeader (str! "x5c") k)
  | jwkSyntax (k msg : Str) : h.additionalHeader = some (.jwk k) → x.parseJwk k = .error msg →
      KeyRejected x h doc (.unableToTransformIntoJoseItem k msg)
  | jwkUnusable (k : Str) (jwk : Jwk) (e : JwtError) : h.additionalHeader = some (.jwk k) →
      x.parseJwk k = .ok jwk → KeyUnusable jwk e → KeyRejected x h doc e
  | kidSyntax (kid msg : Str) : h.additionalHeader = some (.keyId kid) → x.didUrl kid = .error msg →
      KeyRejected x h doc (.unableToTransformIntoDid kid msg)
  | noDocument (kid : Str) (url : DidUrl) : h.additionalHeader = some (.keyId kid) →
      x.didUrl kid = .ok url → doc = none → KeyRejected x h doc .noDidDocumentProvidedForKidAsDid
  | notInDocument (kid : Str) (url : DidUrl) (d : x.Doc) (msg : Str) :
      h.additionalHeader = some (.keyId kid) → x.didUrl kid = .ok url → doc = some d →
      x.select d url = .error msg →
      KeyRejected x h doc (.unableToResolveDidInDidDocument (x.didUrlDisplay url) msg)
  | notAJwk (kid : Str) (url : DidUrl) (d : x.Doc) (vm : x.VM) (msg : Str) :
      h.additionalHeader = some (.keyId kid) → x.didUrl kid = .ok url → doc = some d →
      x.select d url = .verificationMethod vm → x.getJwk vm = .error msg →
      KeyRejected x h doc (.unableToMapVerificationMethodToJwk msg)
  | kidUnusable (kid : Str) (url : DidUrl) (d : x.Doc) (vm : x.VM) (jwk : Jwk) (e : JwtError) :
      h.additionalHeader = some (.keyId kid) → x.didUrl kid = .ok url → doc = some d →
      x.select d url = .verificationMethod vm → x.getJwk vm = .ok jwk → KeyUnusable jwk e →
      KeyRejected x h doc e

/-- The header has a usable key, by DID document or inline. -/
def KeyFound (x : Ext) (h : ProofJwtHeader) (doc : Option x.Doc) : Prop :=
  (∃ did key, KeyResolved x h doc did key) ∨
  ∃ k jwk key, h.additionalHeader = some (.jwk k) ∧ x.parseJwk k = .ok jwk ∧ KeyBytes jwk key

section
variable (x : Ext) (now : Time) (m : CredentialIssuerMetadata) (r : CredentialRequest)
  (offer : Option CredentialOffer) (asm : Option AuthorizationServerMetadata) (doc : Option x.Doc)
  (options : Option EvaluateCredentialRequestOptions)

/-- The configuration is in order: unique ids, an offer, no authorization server metadata. -/
def Configured : Prop := DistinctIds m.credentialsSupported ∧ offer ≠ none ∧ asm = none

/-- The nonce, if any is configured, is in its lifetime. -/
def Timely : Prop := ∀ c ∈ nonceOptions options, now ≤ nonceExpiry c ∧ nonceExpiry c ≤ Time.max

/-- The nonce the JWT has to carry. -/
def expectedNonce : Option Str :=
  match nonceOptions options with
  | some c => some c.expectedCNonce
  | none => none

/-- The request carries this JWT. -/
def Carries (jwt : ProofJwt) : Prop := ∃ p, r.proof = some p ∧ ProofJwt.fromStr x p.jwt = .ok jwt

/-- The client rule. -/
def ClientOk (o : CredentialOffer) (jwt : ProofJwt) : Prop :=
  clientId options ≠ none ∨ ¬ PurelyPreAuthorized o → jwt.body.issuer = clientId options

/-- Everything up to and including the audience is in order. -/
structure Addressed (o : CredentialOffer) (jwt : ProofJwt) : Prop where
  configured : Configured m offer asm
  isOffer : offer = some o
  timely : Timely now options
  carries : Carries x r jwt
  typ : EqFold jwt.header.typ proofTyp
  nonce : expectedNonce options = some jwt.body.nonce
  client : ClientOk options o jwt
  aud : jwt.body.audience = m.credentialIssuer

/-- A rejected evaluation and its error. -/
inductive Rejected : CredentialIssuerError → Prop
  | ids : ¬ DistinctIds m.credentialsSupported → Rejected (.validationError (.any
      (str! "Ids in supported credentials of the issuer metadata are not unique")))
  | noOffer : DistinctIds m.credentialsSupported → offer = none →
      Rejected .credentialOfferMustBeSupplied
  | server : DistinctIds m.credentialsSupported → offer ≠ none → asm ≠ none →
      Rejected .authorizationServerMetadataNotSupported
  | expired (c : CNonceOptions) : Configured m offer asm → nonceOptions options = some c →
      nonceExpiry c ≤ Time.max → nonceExpiry c < now →
      Rejected (.cNonceIsExpired now (nonceExpiry c))
  | noProof : Configured m offer asm → Timely now options → r.proof = none →
      Rejected .noProofInCredentialRequest
  | malformed (p : CredentialRequestProof) (e : ValidationError) : Configured m offer asm →
      Timely now options → r.proof = some p → ProofJwt.fromStr x p.jwt = .err e →
      Rejected (.validationError e)
  | typ (jwt : ProofJwt) : Configured m offer asm → Timely now options → Carries x r jwt →
      ¬ EqFold jwt.header.typ proofTyp →
      Rejected (.validationError (.any
        (str! "jwt header `typ` MUST of of value `openid4vci-proof+jwt`")))
  | nonce (jwt : ProofJwt) : Configured m offer asm → Timely now options → Carries x r jwt →
      EqFold jwt.header.typ proofTyp → expectedNonce options ≠ some jwt.body.nonce →
      Rejected (.jwtError (.nonceMismatch (expectedNonce options) jwt.body.nonce))
  | client (o : CredentialOffer) (jwt : ProofJwt) : Configured m offer asm → offer = some o →
      Timely now options → Carries x r jwt → EqFold jwt.header.typ proofTyp →
      expectedNonce options = some jwt.body.nonce → ¬ ClientOk options o jwt →
      Rejected (.jwtError (.issuerMismatch (clientId options) jwt.body.issuer))
  | aud (o : CredentialOffer) (jwt : ProofJwt) : Configured m offer asm → offer = some o →
      Timely now options → Carries x r jwt → EqFold jwt.header.typ proofTyp →
      expectedNonce options = some jwt.body.nonce → ClientOk options o jwt →
      jwt.body.audience ≠ m.credentialIssuer →
      Rejected (.jwtError (.audienceMismatch m.credentialIssuer jwt.body.audience))
  | key (o : CredentialOffer) (jwt : ProofJwt) (e : JwtError) :
      Addressed x now m r offer asm options o jwt → KeyRejected x jwt.header doc e →
      Rejected (.jwtError e)
  | signature (o : CredentialOffer) (jwt : ProofJwt) :
      Addressed x now m r offer asm options o jwt → KeyFound x jwt.header doc →
      (jwt.toStr x).count '.' < 2 → Rejected (.jwtError (.signatureNotInJwt (jwt.toStr x)))
  | inlineKey (o : CredentialOffer) (jwt : ProofJwt) (k : Str) :
      Addressed x now m r offer asm options o jwt → KeyFound x jwt.header doc →
      2 ≤ (jwt.toStr x).count '.' → jwt.header.additionalHeader = some (.jwk k) →
      Rejected (.jwtError (.unsupportedKeyTypeInJwtHeader (str! "jwk") k))

end

/-- A header without a DID, and the error. -/
inductive DidRejected (x : Ext) (h : ProofJwtHeader) : JwtError → Prop
  | kidSyntax (kid msg : Str) : h.additionalHeader = some (.keyId kid) → x.didUrl kid = .error msg →
      DidRejected x h (.unableToTransformIntoDid kid msg)
  | jwk (k : Str) : h.additionalHeader = some (.jwk k) →
      DidRejected x h (.unsupportedKeyTypeInJwtHeader (str! "jwk") k)
  | x5c (k : Str) : h.additionalHeader = some (.x5c k) →
      DidRejected x h (.unsupportedKeyTypeInJwtHeader (str! "x5c") k)

/-- A rejected pre-evaluation and its error. -/
inductive PreRejected (x : Ext) (r : CredentialRequest) : CredentialIssuerError → Prop
  | proofType (p : CredentialRequestProof) : r.proof = some p → ¬ EqFold p.proofType (str! "JWT") →
      PreRejected x r (.validationError (.any (str! "`proof_type` MUST of of value `JWT`")))
  | malformed (p : CredentialRequestProof) (e : ValidationError) : r.proof = some p →
      EqFold p.proofType (str! "JWT") → ProofJwt.fromStr x p.jwt = .err e →
      PreRejected x r (.validationError e)
  | typ (p : CredentialRequestProof) (jwt : ProofJwt) : r.proof = some p →
      EqFold p.proofType (str! "JWT") → ProofJwt.fromStr x p.jwt = .ok jwt →
      ¬ EqFold jwt.header.typ proofTyp →
      PreRejected x r (.validationError (.any
        (str! "jwt header `typ` MUST of of value `openid4vci-proof+jwt`")))
  | did (p : CredentialRequestProof) (jwt : ProofJwt) (e : JwtError) : r.proof = some p →
      EqFold p.proofType (str! "JWT") → ProofJwt.fromStr x p.jwt = .ok jwt →
      EqFold jwt.header.typ proofTyp → DidRejected x jwt.header e →
      PreRejected x r (.jwtError e)

end Oid4vci.Spec
