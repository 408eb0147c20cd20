import Verif.Spec.KeyProof
import Verif.Spec.Token
import Verif.Spec.Evolve

/-! A service which issues credentials with the library. It is not part of the repository: it stands for the application
that the library is written for, and keeps what the library does not keep, namely which codes and nonces have been used.
The library's functions are called where its documentation says (credential_issuer/mod.rs:406-596,
access_token/mod.rs:143-221); requests of any number of wallets interleave, credentials may be added to the
metadata meanwhile, and the service may stop at any point. -/

namespace Oid4vci.Spec

open CredentialIssuer AccessToken

/-- When a nonce is marked as used: before the answer is handed over, or once it has been delivered. -/
inductive Order
  | spendFirst | answerFirst
  deriving DecidableEq

/-- What the service is configured with. -/
structure Setting (x : Ext) where
  /-- its own identifier -/
  issuer : Str
  client : Option Str
  verifies : Scheme
  /-- DID resolution -/
  resolve : Str → Option x.Doc
  order : Order

/-- How far an offer has been used. -/
inductive Stage
  | offered | redeemed (nonce : CNonceOptions) | spent (nonce : CNonceOptions)

/-- The nonce that was handed out. -/
def Stage.nonce : Stage → Option CNonceOptions
  | .offered => none
  | .redeemed c => some c
  | .spent c => some c

/-- The nonce is used now. -/
def Stage.spend : Stage → Stage
  | .offered => .offered
  | .redeemed c => .spent c
  | .spent c => .spent c

/-- What is stored about an offer; `terms`, the metadata at the time of the offer, is history. -/
structure Session where
  terms : CredentialIssuerMetadata
  offer : CredentialOffer
  pin : Option UInt64
  stage : Stage

/-- An accepted token request. -/
structure Redemption where
  session : Nat
  time : Time
  request : AccessTokenRequest

/-- An accepted credential request and the response of the library, from which the credential is made. -/
structure Answer where
  session : Nat
  time : Time
  request : CredentialRequest
  response : CredentialIssuerEvaluateRequestResponse

/-- The state of the service. The store outlives a stop of the service, the answers in flight do not. The last two
members are history, which the service does not look at. -/
structure Service where
  now : Time
  metadata : CredentialIssuerMetadata
  store : Nat → Option Session
  flight : List Answer
  redemptions : List Redemption
  delivered : List Answer

/-- The store with another entry. -/
def Service.put (s : Service) (i : Nat) (v : Session) : Nat → Option Session :=
  fun j => if j = i then some v else s.store j

/-- A credential request passes: pre-evaluation, resolution of the DID it gives, evaluation, `verify`, and the checks
that are left to the caller. -/
def Admitted {x : Ext} (S : Setting x) (now : Time) (m : CredentialIssuerMetadata) (o : CredentialOffer) (c : CNonceOptions)
    (r : CredentialRequest) (resp : CredentialIssuerEvaluateRequestResponse) : Prop :=
  ∃ pre did d p jwt, preEvaluateCredentialRequest x r = .ok pre ∧ pre.did = some did ∧ S.resolve did = some d ∧
    evaluateCredentialRequest x now m r (some o) none (some d) (some ⟨some c, S.client⟩) = .ok resp ∧
    r.proof = some p ∧ ProofJwt.fromStr x p.jwt = .ok jwt ∧ jwt.verify now = .ok () ∧
    LeftToCaller S.verifies now m o p.jwt jwt resp

/-- What can happen. -/
inductive Step {x : Ext} (S : Setting x) : Service → Service → Prop
  /-- time goes on -/
  | tick (s : Service) (t : Time) : s.now ≤ t → Step S s { s with now := t }
  /-- the metadata is changed, see C119 -/
  | change (s : Service) (m : CredentialIssuerMetadata) : Extends s.metadata m → Step S s { s with metadata := m }
  /-- an offer is made -/
  | offer (s : Service) (i : Nat) (cs : CredentialOrIds) (endpoint : Option Str) (p : Option PreAuthorizedCodeFlow)
      (pin : Option UInt64) (o : CredentialOffer) (url : Str) : s.store i = none →
      createOffer s.metadata cs endpoint none p = .ok (o, url) →
      Step S s { s with store := s.put i ⟨s.metadata, o, pin, .offered⟩ }
  /-- a token request is accepted; the nonce is one that was never handed out -/
  | token (s : Service) (i : Nat) (v : Session) (r : AccessTokenRequest) (lifetime : UInt32) (nonce : Str) :
      s.store i = some v → v.stage = .offered →
      evaluateAccessTokenRequest r (some v.offer) (some ⟨v.pin⟩) = .ok () →
      (∀ j w c, s.store j = some w → w.stage.nonce = some c → c.expectedCNonce ≠ nonce) →
      Step S s { s with store := s.put i { v with stage := .redeemed ⟨lifetime, nonce, s.now⟩ }
                        redemptions := ⟨i, s.now, r⟩ :: s.redemptions }
  /-- a credential request is accepted -/
  | credential (s : Service) (i : Nat) (v : Session) (c : CNonceOptions) (r : CredentialRequest)
      (resp : CredentialIssuerEvaluateRequestResponse) : s.store i = some v → v.stage = .redeemed c →
      Admitted S s.now s.metadata v.offer c r resp →
      Step S s { s with store := if S.order = .spendFirst then s.put i { v with stage := .spent c } else s.store
                        flight := ⟨i, s.now, r, resp⟩ :: s.flight }
  /-- an answer is delivered -/
  | deliver (s : Service) (a : Answer) (before after : List Answer) (v : Session) : s.flight = before ++ a :: after →
      s.store a.session = some v →
      Step S s { s with store := s.put a.session { v with stage := v.stage.spend }
                        flight := before ++ after
                        delivered := a :: s.delivered }
  /-- the service stops and starts again -/
  | crash (s : Service) : Step S s { s with flight := [] }

/-- The states that the service can come to. -/
inductive Reachable {x : Ext} (S : Setting x) : Service → Prop
  | start (t : Time) (m : CredentialIssuerMetadata) : m.credentialIssuer = S.issuer → Reachable S ⟨t, m, fun _ => none, [], [], []⟩
  | step (s s' : Service) : Reachable S s → Step S s s' → Reachable S s'

/-- The key that a token names belongs to a DID, which resolves to a document. -/
def NamesKeyOf (x : Ext) (resolve : Str → Option x.Doc) (token did : Str) (d : x.Doc) : Prop :=
  ∃ jwt kid url, JwtText x jwt token ∧ jwt.header.additionalHeader = some (.keyId kid) ∧ x.didUrl kid = .ok url ∧
    url.did = did ∧ resolve did = some d

/-- The key that is reported is the one which the token names, from the document of the DID, with the token's
algorithm. -/
def PresentsKey (x : Ext) (resolve : Str → Option x.Doc) (token did : Str) (d : x.Doc) (pop : ProofOfPossession) : Prop :=
  ∃ jwt, JwtText x jwt token ∧ KeyResolved x jwt.header (some d) did pop.publicKey ∧ resolve did = some d ∧
    pop.algorithm = jwt.header.alg

/-- An answer is rightful: its credential is one that the offer stood for when this issuer made it, the offer's code was redeemed before, with the PIN
if one is required, and within the lifetime of the nonce that was handed out for it there came a valid key proof for that
nonce, of the subject to whom the credential is issued. -/
def Rightful {x : Ext} (S : Setting x) (s : Service) (a : Answer) : Prop :=
  ∃ v c r type token did d pop, s.store a.session = some v ∧ v.stage.nonce = some c ∧
    v.offer.credentialIssuer = S.issuer ∧
    (∃ e ∈ v.offer.credentials, StandsFor v.terms e a.response.credential) ∧
    r ∈ s.redemptions ∧ r.session = a.session ∧ TokenAccepted 9 r.request (some v.offer) (some ⟨v.pin⟩) ∧
    r.time = c.cNonceCreatedAt ∧ r.time ≤ a.time ∧ a.time ≤ nonceExpiry c ∧
    a.request = ⟨a.response.credential, some ⟨type, token⟩⟩ ∧
    ValidKeyProof x S.verifies a.time ⟨S.issuer, c.expectedCNonce, checkedClient v.offer S.client, d⟩
      token ∧
    PresentsKey x S.resolve token did d pop ∧ a.response.subjectId = some did ∧
    a.response.proofOfPossession = some pop

/-- A message says: for this issuer and this nonce. It is a JWT up to its signature. -/
def Says (x : Ext) (issuer nonce : Str) (message : Bytes) : Prop :=
  ∃ jwt text, message = utf8Encode text ∧ JwtText x jwt text ∧ jwt.signature = none ∧ jwt.body.audience = issuer ∧
    jwt.body.nonce = nonce

/-- A signature that verifies was made by the holder of the key. -/
def Unforgeable (verifies : Scheme) (signed : Bytes → Bytes → Prop) : Prop :=
  ∀ alg key message sig, Asymmetric alg → verifies alg key message sig → signed key message

end Oid4vci.Spec
