import Verif.Lemmas.Evaluate
import Verif.Props.Offer
import Verif.Props.Token

/-!
Credential request evaluation: C22 binding, C23 no nonce, C24 client id, C25 key, C26 agreement with
pre-evaluation, C27 algorithms, C28 validity window, C33 proof type, C34 requested credential,
C46 panics, C51 nonce lifetime.
-/

namespace Oid4vci

open Spec CredentialIssuer

/-! ### Encoding a JWT as a wallet does -/

/-- The compact form of a signed JWT. -/
def Spec.compact (x : Ext) (h : ProofJwtHeader) (b : ProofJwtBody) (sig : Option Str) : Str :=
  dotted (base64urlEncode (utf8Encode h.ser.print) ::
    base64urlEncode (utf8Encode (b.ser x).print) :: sig.toList)

theorem fromStr_compact (x : Ext) (h : ProofJwtHeader) (b : ProofJwtBody) (sig : Option Str)
    (ht : TimesOk x b) (hsig : ∀ s ∈ sig, NoDot s) :
    ProofJwt.fromStr x (compact x h b sig) = .ok ⟨h, b, sig⟩ :=
  C17_parses x h b sig ht hsig _ _ (isBase64url_encode _) (isBase64url_encode _)

theorem extractSignature_ok (x : Ext) (j : ProofJwt) :
    (∃ b, j.extractSignature x = .ok b) ↔
      j.signature ≠ none ∨ ¬ (HeaderDotFree j.header ∧ BodyDotFree x j.body) := by
  by_cases hd : HeaderDotFree j.header ∧ BodyDotFree x j.body
  · rw [extractSignature_dotFree x j hd.1 hd.2]
    cases j.signature <;> simp [hd]
  · obtain ⟨t, ht, -⟩ := extractSignature_dot x j hd
    exact iff_of_true ⟨_, ht⟩ (.inr hd)

/-! ### Example -/

namespace Ex

/-- The DID document of `header`'s DID. -/
def didDoc : ext.Doc := [(str! "k", ⟨none, .okp [1, 2, 3]⟩)]

/-- A signed proof for `metadata`'s issuer. -/
def request : CredentialRequest :=
  ⟨mdoc, some ⟨str! "jwt", compact ext header plainBody (some (str! "c2ln"))⟩⟩

/-- Nonce options: `nonce`, valid for 100 seconds after the epoch. -/
def options : Option EvaluateCredentialRequestOptions := some ⟨some ⟨100, str! "nonce", 0⟩, none⟩

theorem fromStr_request : ProofJwt.fromStr ext (compact ext header plainBody (some (str! "c2ln")))
    = .ok ⟨header, plainBody, some (str! "c2ln")⟩ :=
  fromStr_compact _ _ _ _ timesOk_plainBody (by simp [NoDot])

theorem bound : Bound ext 1000 metadata request pinOffer options
    ⟨header, plainBody, some (str! "c2ln")⟩ where
  proof := ⟨_, rfl, fromStr_request⟩
  typ := (lowercase_eq_iff _).1 (by decide +kernel)
  nonce := ⟨_, rfl, rfl, by decide +kernel, by decide +kernel⟩
  aud := rfl
  iss h := by rcases h with h | h <;> simp [clientId, options, PurelyPreAuthorized, pinOffer] at h

theorem keyResolved : KeyResolved ext header (some didDoc) (str! "did:example:h") [1, 2, 3] :=
  ⟨_, _, _, _, _, rfl, rfl, by decide +kernel, rfl, rfl, rfl, .inl rfl⟩

theorem distinct_metadata : DistinctIds metadata.credentialsSupported :=
  (metadata_validate_iff metadata).1 (by decide +kernel)

theorem evaluates : ∃ resp, evaluateCredentialRequest ext 1000 metadata request (some pinOffer) none
    (some didDoc) options = .ok resp := by
  obtain ⟨sig, hs⟩ := (extractSignature_ok ext ⟨header, plainBody, some (str! "c2ln")⟩).2
    (.inl (by simp))
  obtain ⟨msg, hm⟩ := signable_ok ext ⟨header, plainBody, some (str! "c2ln")⟩
  exact ⟨_, (evaluate_ok_iff ..).2 ⟨distinct_metadata, rfl, _, _, _, _, _, _, rfl, bound, keyResolved,
    hs, hm, rfl⟩⟩

end Ex

section

variable (x : Ext) (now : Time) (m : CredentialIssuerMetadata) (r : CredentialRequest)
  (offer : Option CredentialOffer) (asm : Option AuthorizationServerMetadata) (doc : Option x.Doc)
  (options : Option EvaluateCredentialRequestOptions)

/-! ### C22 -/

/-- C22. What acceptance guarantees. -/
theorem C22_bound (resp : CredentialIssuerEvaluateRequestResponse)
    (h : evaluateCredentialRequest x now m r offer asm doc options = .ok resp) :
    DistinctIds m.credentialsSupported ∧ offer ≠ none ∧ asm = none ∧
    ∃ p jwt c, r.proof = some p ∧ ProofJwt.fromStr x p.jwt = .ok jwt ∧
      EqFold jwt.header.typ proofTyp ∧ nonceOptions options = some c ∧
      jwt.body.nonce = c.expectedCNonce ∧ now ≤ nonceExpiry c ∧
      jwt.body.audience = m.credentialIssuer := by
  obtain ⟨hm, ha, o, jwt, did, key, sig, msg, ho, ⟨⟨p, hp, hj⟩, ht, ⟨c, hc, hn, hl, -⟩, hau, -⟩, -⟩ :=
    (evaluate_ok_iff ..).1 h
  exact ⟨hm, by simp [ho], ha, p, jwt, c, hp, hj, ht, hc, hn, hl, hau⟩

/-- C22. The exact acceptance condition: nothing else is needed, and what is returned. The last
condition is that `extract_signature` finds something, see C29. -/
theorem C22_accept_iff :
    (∃ resp, evaluateCredentialRequest x now m r offer asm doc options = .ok resp) ↔
      DistinctIds m.credentialsSupported ∧ asm = none ∧ ∃ o jwt did key, offer = some o ∧
        Bound x now m r o options jwt ∧ KeyResolved x jwt.header doc did key ∧
        (jwt.signature ≠ none ∨ ¬ (HeaderDotFree jwt.header ∧ BodyDotFree x jwt.body)) := by
  constructor
  · rintro ⟨resp, h⟩
    obtain ⟨hm, ha, o, jwt, did, key, sig, msg, ho, hb, hk, hs, -⟩ := (evaluate_ok_iff ..).1 h
    exact ⟨hm, ha, o, jwt, did, key, ho, hb, hk, (extractSignature_ok _ _).1 ⟨_, hs⟩⟩
  · rintro ⟨hm, ha, o, jwt, did, key, ho, hb, hk, hs⟩
    obtain ⟨sig, hs⟩ := (extractSignature_ok _ _).2 hs
    obtain ⟨msg, hmsg⟩ := signable_ok x jwt
    exact ⟨_, (evaluate_ok_iff ..).2 ⟨hm, ha, o, jwt, did, key, sig, msg, ho, hb, hk, hs, hmsg, rfl⟩⟩

example : ∃ resp, evaluateCredentialRequest Ex.ext 1000 Ex.metadata Ex.request (some Ex.pinOffer) none
    (some Ex.didDoc) Ex.options = .ok resp := Ex.evaluates

/-! ### C23 -/

/-- C23. Without a configured nonce nothing is accepted. -/
theorem C23_nonce_needed
    (h : options = none ∨ ∃ o, options = some o ∧ o.cNonce = none)
    (resp : CredentialIssuerEvaluateRequestResponse) :
    evaluateCredentialRequest x now m r offer asm doc options ≠ .ok resp := by
  intro he
  obtain ⟨-, -, -, p, jwt, c, -, -, -, hc, -⟩ := C22_bound x now m r offer asm doc options resp he
  rcases h with rfl | ⟨o, rfl, ho⟩
  · cases hc
  · simp only [nonceOptions, ho] at hc; cases hc

example : (none : Option EvaluateCredentialRequestOptions) = none ∨ ∃ o,
    (none : Option EvaluateCredentialRequestOptions) = some o ∧ o.cNonce = none := .inl rfl

/-! ### C24 -/

/-- C24. `iss` equals the configured client id, unless the offer lists only the pre-authorized flow
and no client id is configured. -/
theorem C24_client_id (o : CredentialOffer) (resp : CredentialIssuerEvaluateRequestResponse)
    (p : CredentialRequestProof) (jwt : ProofJwt)
    (h : evaluateCredentialRequest x now m r (some o) asm doc options = .ok resp)
    (hp : r.proof = some p) (hj : ProofJwt.fromStr x p.jwt = .ok jwt)
    (hc : clientId options ≠ none ∨ ¬ PurelyPreAuthorized o) :
    jwt.body.issuer = clientId options := by
  obtain ⟨-, -, o', jwt', did, key, sig, msg, ho, ⟨⟨p', hp', hj'⟩, -, -, -, hi⟩, -⟩ :=
    (evaluate_ok_iff ..).1 h
  cases ho
  rw [hp] at hp'; cases hp'
  rw [hj] at hj'; cases hj'
  exact hi hc

/-- C24. In the remaining case `iss` is not looked at: for every accepted request, the same JWT with
any other `iss` is accepted. -/
theorem C24_unchecked (o : CredentialOffer) (resp : CredentialIssuerEvaluateRequestResponse)
    (p : CredentialRequestProof) (jwt : ProofJwt) (iss : Option Str)
    (h : evaluateCredentialRequest x now m r (some o) asm doc options = .ok resp)
    (hp : r.proof = some p) (hj : ProofJwt.fromStr x p.jwt = .ok jwt) (ht : TimesOk x jwt.body)
    (hc : clientId options = none) (hpre : PurelyPreAuthorized o) :
    ∃ resp', evaluateCredentialRequest x now m { r with proof := some ⟨p.proofType,
        compact x jwt.header { jwt.body with issuer := iss } (some [])⟩ }
      (some o) asm doc options = .ok resp' := by
  obtain ⟨hm, ha, o', jwt', did, key, sig, msg, ho, ⟨⟨p', hp', hj'⟩, h1, h2, h3, -⟩, hk, -⟩ :=
    (evaluate_ok_iff ..).1 h
  cases ho
  rw [hp] at hp'; cases hp'
  rw [hj] at hj'; cases hj'
  refine (C22_accept_iff ..).2 ⟨hm, ha, o, ⟨jwt.header, { jwt.body with issuer := iss }, some []⟩, did,
    key, rfl, ⟨⟨_, rfl, fromStr_compact _ _ _ _ ht (by simp [NoDot])⟩, h1, h2, h3, ?_⟩, hk,
    .inl (by simp)⟩
  rintro (h | h)
  · exact absurd hc h
  · exact absurd hpre h

example : PurelyPreAuthorized Ex.pinOffer ∧ ¬ PurelyPreAuthorized Ex.bothOffer := by
  simp [PurelyPreAuthorized, Ex.pinOffer, Ex.bothOffer]

/-! ### C25 -/

/-- C25. The proof names its key by DID URL; the returned key is the one which that URL selects in the
supplied document, the subject is its DID. -/
theorem C25_key (resp : CredentialIssuerEvaluateRequestResponse)
    (p : CredentialRequestProof) (jwt : ProofJwt)
    (h : evaluateCredentialRequest x now m r offer asm doc options = .ok resp)
    (hp : r.proof = some p) (hj : ProofJwt.fromStr x p.jwt = .ok jwt) :
    ∃ did pop, resp.subjectId = some did ∧ resp.proofOfPossession = some pop ∧
      pop.algorithm = jwt.header.alg ∧ KeyResolved x jwt.header doc did pop.publicKey := by
  obtain ⟨-, -, o', jwt', did, key, sig, msg, ho, ⟨⟨p', hp', hj'⟩, -⟩, hk, -, -, rfl⟩ :=
    (evaluate_ok_iff ..).1 h
  rw [hp] at hp'; cases hp'
  rw [hj] at hj'; cases hj'
  exact ⟨did, _, rfl, rfl, rfl, hk⟩

/-- C25. Proofs with `jwk`, `x5c` or no key are not accepted. -/
theorem C25_only_kid (p : CredentialRequestProof) (jwt : ProofJwt) (hp : r.proof = some p)
    (hj : ProofJwt.fromStr x p.jwt = .ok jwt)
    (hk : ∀ kid, jwt.header.additionalHeader ≠ some (.keyId kid))
    (resp : CredentialIssuerEvaluateRequestResponse) :
    evaluateCredentialRequest x now m r offer asm doc options ≠ .ok resp := by
  intro h
  obtain ⟨did, pop, -, -, -, kid, _, _, _, _, hk', -⟩ :=
    C25_key x now m r offer asm doc options resp p jwt h hp hj
  exact hk kid hk'

/-- C25. Without a DID document nothing is accepted. -/
theorem C25_document_needed (resp : CredentialIssuerEvaluateRequestResponse) :
    evaluateCredentialRequest x now m r offer asm none options ≠ .ok resp := by
  intro h
  obtain ⟨-, -, o', jwt', did, key, sig, msg, ho, -, ⟨_, _, _, _, _, -, -, -, hd, -⟩, -⟩ :=
    (evaluate_ok_iff ..).1 h
  cases hd

example : ∀ kid, (⟨proofTyp, .EdDSA, some (.jwk (str! "{}"))⟩ : ProofJwtHeader).additionalHeader ≠
    some (.keyId kid) := by simp

/-! ### C26 -/

/-- Success of pre-evaluation. -/
theorem preEvaluate_ok_iff (d : Option Str) :
    preEvaluateCredentialRequest x r = .ok ⟨d⟩ ↔ r.validate x = .ok () ∧
      ((r.proof = none ∧ d = none) ∨ ∃ p jwt, r.proof = some p ∧ ProofJwt.fromStr x p.jwt = .ok jwt ∧
        jwt.extractDid x = .ok d) := by
  unfold preEvaluateCredentialRequest
  simp only [Res.bind_eq_ok, Res.mapErr_eq_ok]
  cases hp : r.proof with
  | none =>
    constructor
    · rintro ⟨_, hv, h⟩; cases h; exact ⟨hv, .inl ⟨rfl, rfl⟩⟩
    · rintro ⟨hv, ⟨-, rfl⟩ | ⟨p, jwt, h, -⟩⟩
      · exact ⟨(), hv, rfl⟩
      · cases h
  | some p =>
    simp only [Res.bind_eq_ok, Res.mapErr_eq_ok]
    constructor
    · rintro ⟨_, hv, jwt, hj, _, -, did, hd, h⟩
      cases h
      exact ⟨hv, .inr ⟨p, jwt, rfl, hj, hd⟩⟩
    · rintro ⟨hv, ⟨h, -⟩ | ⟨p', jwt, h, hj, hd⟩⟩
      · cases h
      · cases h
        refine ⟨(), hv, jwt, hj, (), ?_, d, hd, rfl⟩
        obtain ⟨-, j, hj', ht⟩ := (C19_request x r).1 hv p hp
        rw [hj] at hj'; cases hj'
        exact (C19_typ jwt).2 ht

/-- C26. Both succeed: they agree on the DID. -/
theorem C26_same_did (pre : PreEvaluateCredentialRequestResponse)
    (resp : CredentialIssuerEvaluateRequestResponse)
    (h1 : preEvaluateCredentialRequest x r = .ok pre)
    (h2 : evaluateCredentialRequest x now m r offer asm doc options = .ok resp) :
    pre.did = resp.subjectId ∧ pre.did ≠ none := by
  obtain ⟨d⟩ := pre
  obtain ⟨-, -, o', jwt', did, key, sig, msg, ho, ⟨⟨p', hp', hj'⟩, -⟩, hk, -, -, rfl⟩ :=
    (evaluate_ok_iff ..).1 h2
  obtain ⟨-, ⟨h, -⟩ | ⟨p, jwt, hp, hj, hd⟩⟩ := (preEvaluate_ok_iff x r d).1 h1
  · rw [hp'] at h; cases h
  · rw [hp] at hp'; cases hp'
    rw [hj] at hj'; cases hj'
    obtain ⟨-, hd'⟩ := keyResolved_iff.2 ⟨rfl, did, rfl, hk⟩
    rw [hd] at hd'; cases hd'
    exact ⟨rfl, by simp⟩

/-- C26. A valid request accepted by evaluation passes pre-evaluation. -/
theorem C26_pre_succeeds (resp : CredentialIssuerEvaluateRequestResponse)
    (hv : r.validate x = .ok ())
    (h : evaluateCredentialRequest x now m r offer asm doc options = .ok resp) :
    preEvaluateCredentialRequest x r = .ok ⟨resp.subjectId⟩ := by
  obtain ⟨-, -, o', jwt', did, key, sig, msg, ho, ⟨⟨p', hp', hj'⟩, -⟩, hk, -, -, rfl⟩ :=
    (evaluate_ok_iff ..).1 h
  obtain ⟨-, hd'⟩ := keyResolved_iff.2 ⟨rfl, did, rfl, hk⟩
  exact (preEvaluate_ok_iff x r _).2 ⟨hv, .inr ⟨p', jwt', hp', hj', hd'⟩⟩

/-- The example request validates. -/
theorem Ex.request_valid : Ex.request.validate Ex.ext = .ok () :=
  (C19_request _ _).2 fun p hp => by
    cases hp
    exact ⟨(uppercase_eq_iff _).1 (by decide +kernel), _, Ex.fromStr_request, Ex.bound.typ⟩

example : ∃ pre resp, preEvaluateCredentialRequest Ex.ext Ex.request = .ok pre ∧
    evaluateCredentialRequest Ex.ext 1000 Ex.metadata Ex.request (some Ex.pinOffer) none
    (some Ex.didDoc) Ex.options = .ok resp := by
  obtain ⟨resp, h⟩ := Ex.evaluates
  exact ⟨_, resp, C26_pre_succeeds _ _ _ _ _ _ _ _ _ Ex.request_valid h, h⟩

/-! ### C27 -/

/-- C27, full statement. -/
def C27_statement : Prop := ∀ (x : Ext) (now : Time) (m : CredentialIssuerMetadata)
  (r : CredentialRequest) (offer : Option CredentialOffer) (asm : Option AuthorizationServerMetadata)
  (doc : Option x.Doc) (options : Option EvaluateCredentialRequestOptions)
  (resp : CredentialIssuerEvaluateRequestResponse) (p : CredentialRequestProof) (jwt : ProofJwt),
  evaluateCredentialRequest x now m r offer asm doc options = .ok resp → r.proof = some p →
  ProofJwt.fromStr x p.jwt = .ok jwt → jwt.header.alg ∉ [.none, .HS256, .HS384, .HS512]

/-- C27 is violated for every accepted request: the same proof with any other algorithm in its header
is accepted, with that algorithm reported. -/
theorem C27_any_alg_accepted (resp : CredentialIssuerEvaluateRequestResponse)
    (p : CredentialRequestProof) (jwt : ProofJwt) (a : ProofJwtAlgorithm)
    (h : evaluateCredentialRequest x now m r offer asm doc options = .ok resp)
    (hp : r.proof = some p) (hj : ProofJwt.fromStr x p.jwt = .ok jwt) (ht : TimesOk x jwt.body) :
    ∃ resp' pop, evaluateCredentialRequest x now m { r with proof := some ⟨p.proofType,
        compact x { jwt.header with alg := a } jwt.body (some [])⟩ }
      offer asm doc options = .ok resp' ∧ resp'.proofOfPossession = some pop ∧ pop.algorithm = a := by
  obtain ⟨hm, ha, o, jwt', did, key, sig, msg, ho, ⟨⟨p', hp', hj'⟩, h1, h2, h3, h4⟩, hk, -⟩ :=
    (evaluate_ok_iff ..).1 h
  rw [hp] at hp'; cases hp'
  rw [hj] at hj'; cases hj'
  have hfs := fromStr_compact x { jwt.header with alg := a } jwt.body (some []) ht (by simp [NoDot])
  obtain ⟨resp', hr⟩ := (C22_accept_iff x now m { r with proof := some ⟨p.proofType,
        compact x { jwt.header with alg := a } jwt.body (some [])⟩ } offer asm doc options).2
    ⟨hm, ha, o, ⟨{ jwt.header with alg := a }, jwt.body, some []⟩, did,
    key, ho, ⟨⟨_, rfl, hfs⟩, h1, h2, h3, h4⟩, hk, .inl (by simp)⟩
  obtain ⟨_, pop, -, h5, h6, -⟩ := C25_key _ _ _ _ _ _ _ _ _ _ _ hr rfl hfs
  exact ⟨resp', pop, hr, h5, h6⟩

/-- C27 does not hold. -/
theorem C27_refuted : ¬ C27_statement := by
  intro h
  obtain ⟨resp, he⟩ := Ex.evaluates
  obtain ⟨resp', -, h', -⟩ := C27_any_alg_accepted _ _ _ _ _ _ _ _ _ _ _ .none he rfl
    Ex.fromStr_request Ex.timesOk_plainBody
  exact h _ _ _ _ _ _ _ _ _ _ _ h' rfl (fromStr_compact _ _ _ _ Ex.timesOk_plainBody
    (by simp [NoDot])) (by simp)

/-- C27, the part that holds: the algorithm reported to the caller, who has to check the signature, is
the one in the header, so the caller can reject the proof. Missing: the rejection. -/
theorem C27_reported_partial (resp : CredentialIssuerEvaluateRequestResponse)
    (p : CredentialRequestProof) (jwt : ProofJwt)
    (h : evaluateCredentialRequest x now m r offer asm doc options = .ok resp)
    (hp : r.proof = some p) (hj : ProofJwt.fromStr x p.jwt = .ok jwt) :
    resp.proofOfPossession.map (·.algorithm) = some jwt.header.alg := by
  obtain ⟨did, pop, -, h1, h2, -⟩ := C25_key x now m r offer asm doc options resp p jwt h hp hj
  rw [h1, ← h2]; rfl

/-! ### C28 -/

/-- C28, full statement. -/
def C28_statement : Prop := ∀ (x : Ext) (now : Time) (m : CredentialIssuerMetadata)
  (r : CredentialRequest) (offer : Option CredentialOffer) (asm : Option AuthorizationServerMetadata)
  (doc : Option x.Doc) (options : Option EvaluateCredentialRequestOptions)
  (resp : CredentialIssuerEvaluateRequestResponse) (p : CredentialRequestProof) (jwt : ProofJwt),
  evaluateCredentialRequest x now m r offer asm doc options = .ok resp → r.proof = some p →
  ProofJwt.fromStr x p.jwt = .ok jwt → InWindow jwt.body now

/-- C28 is violated for every accepted request: the same proof with any other validity window is
accepted. -/
theorem C28_any_window_accepted (resp : CredentialIssuerEvaluateRequestResponse)
    (p : CredentialRequestProof) (jwt : ProofJwt) (nbf exp : Option Time)
    (h : evaluateCredentialRequest x now m r offer asm doc options = .ok resp)
    (hp : r.proof = some p) (hj : ProofJwt.fromStr x p.jwt = .ok jwt)
    (ht : TimesOk x { jwt.body with notBefore := nbf, expiresAt := exp }) :
    ∃ resp', evaluateCredentialRequest x now m { r with proof := some ⟨p.proofType,
        compact x jwt.header { jwt.body with notBefore := nbf, expiresAt := exp } (some [])⟩ }
      offer asm doc options = .ok resp' := by
  obtain ⟨hm, ha, o, jwt', did, key, sig, msg, ho, ⟨⟨p', hp', hj'⟩, h1, h2, h3, h4⟩, hk, -⟩ :=
    (evaluate_ok_iff ..).1 h
  rw [hp] at hp'; cases hp'
  rw [hj] at hj'; cases hj'
  have hfs := fromStr_compact x jwt.header { jwt.body with notBefore := nbf, expiresAt := exp }
    (some []) ht (by simp [NoDot])
  exact (C22_accept_iff ..).2 ⟨hm, ha, o, ⟨jwt.header,
    { jwt.body with notBefore := nbf, expiresAt := exp }, some []⟩, did, key, ho,
    ⟨⟨_, rfl, hfs⟩, h1, h2, h3, h4⟩, hk, .inl (by simp)⟩

/-- C28 does not hold. -/
theorem C28_refuted : ¬ C28_statement := by
  intro h
  obtain ⟨resp, he⟩ := Ex.evaluates
  have ht : TimesOk Ex.ext { Ex.plainBody with notBefore := none, expiresAt := some 999 } :=
    Ex.timesOk _ (by decide) (by simp) (by simp)
  obtain ⟨resp', h'⟩ := C28_any_window_accepted _ _ _ _ _ _ _ _ _ _ _ none (some 999) he rfl
    Ex.fromStr_request ht
  have := (h _ _ _ _ _ _ _ _ _ _ _ h' rfl (fromStr_compact _ _ _ _ ht (by simp [NoDot]))).2 999 rfl
  exact absurd this (by decide)

/-- C28, the part that holds: a proof that stays valid at least as long as the nonce is never accepted
after its `exp`. Missing: proofs that expire before the nonce, and `nbf`. -/
theorem C28_nonce_bounds_exp_partial (resp : CredentialIssuerEvaluateRequestResponse)
    (p : CredentialRequestProof) (jwt : ProofJwt) (c : CNonceOptions) (ex : Time)
    (h : evaluateCredentialRequest x now m r offer asm doc options = .ok resp)
    (_ : r.proof = some p) (_ : ProofJwt.fromStr x p.jwt = .ok jwt)
    (_ : jwt.body.expiresAt = some ex) (hc : nonceOptions options = some c)
    (hex : nonceExpiry c ≤ ex) : now ≤ ex := by
  obtain ⟨-, -, -, -, -, c', -, -, -, hc', -, hl, -⟩ := C22_bound x now m r offer asm doc options resp h
  rw [hc] at hc'; cases hc'
  exact le_trans hl hex

/-! ### C33 -/

/-- C33, full statement for the three functions. -/
def C33_statement : Prop := ∀ (x : Ext) (r : CredentialRequest) (p : CredentialRequestProof),
  r.proof = some p → ¬ EqFold p.proofType (str! "JWT") →
  (∀ pre, preEvaluateCredentialRequest x r ≠ .ok pre) ∧
  (∀ now m offer asm doc options resp,
    evaluateCredentialRequest x now m r offer asm doc options ≠ .ok resp) ∧
  ∀ now c nonce resp, createCredentialSuccessResponse x now r c nonce ≠ .ok resp

/-- C33 is violated by evaluation for every accepted request: the outcome does not depend on the
proof type at all. -/
theorem C33_evaluate_ignores_type (p : CredentialRequestProof) (pt : Str) (hp : r.proof = some p) :
    evaluateCredentialRequest x now m { r with proof := some { p with proofType := pt } } offer asm
      doc options = evaluateCredentialRequest x now m r offer asm doc options := by
  obtain ⟨f, proof⟩ := r
  cases hp
  rfl

/-- C33 does not hold. -/
theorem C33_refuted : ¬ C33_statement := by
  intro h
  obtain ⟨resp, he⟩ := Ex.evaluates
  rw [← C33_evaluate_ignores_type _ _ _ _ _ _ _ _ _ (str! "ldp_vp") rfl] at he
  refine (h _ _ _ rfl ?_).2.1 _ _ _ _ _ _ _ he
  rw [← uppercase_eq_iff]
  decide +kernel

/-- C33 for pre-evaluation and the success response. Missing: `evaluate_credential_request`. -/
theorem C33_other_paths_partial (p : CredentialRequestProof) (hp : r.proof = some p)
    (ht : ¬ EqFold p.proofType (str! "JWT")) :
    (∀ pre, preEvaluateCredentialRequest x r ≠ .ok pre) ∧
    ∀ now c nonce resp, createCredentialSuccessResponse x now r c nonce ≠ .ok resp := by
  have hv : r.validate x ≠ .ok () := fun hv => ht ((C19_request x r).1 hv p hp).1
  refine ⟨fun ⟨d⟩ h => hv ((preEvaluate_ok_iff x r d).1 h).1, fun now c nonce resp h => ?_⟩
  unfold createCredentialSuccessResponse at h
  rw [Res.bind_eq_ok] at h
  obtain ⟨_, h, -⟩ := h
  exact hv (Res.mapErr_eq_ok.1 h)

example : ¬ EqFold (str! "ldp_vp") (str! "JWT") := by
  rw [← uppercase_eq_iff]; decide +kernel

/-! ### C34 -/

/-- C34, full statement. -/
def C34_statement : Prop := ∀ (x : Ext) (now : Time) (m : CredentialIssuerMetadata)
  (r : CredentialRequest) (o : CredentialOffer) (asm : Option AuthorizationServerMetadata)
  (doc : Option x.Doc) (options : Option EvaluateCredentialRequestOptions)
  (resp : CredentialIssuerEvaluateRequestResponse),
  evaluateCredentialRequest x now m r (some o) asm doc options = .ok resp →
  resp.credential = r.format ∧ (∃ s ∈ m.credentialsSupported, s.format = r.format) ∧
  ∃ c ∈ o.credentials, StandsFor m c r.format

/-- C34 is violated for every accepted request: any other credential can be requested instead, with
the same outcome. -/
theorem C34_any_credential_granted (resp : CredentialIssuerEvaluateRequestResponse)
    (f : CredentialFormatProfile)
    (h : evaluateCredentialRequest x now m r offer asm doc options = .ok resp) :
    evaluateCredentialRequest x now m { r with format := f } offer asm doc options
      = .ok { resp with credential := f } := by
  obtain ⟨hm, ha, o, jwt, did, key, sig, msg, ho, ⟨h0, h1, h2, h3, h4⟩, hk, hs, hmsg, rfl⟩ :=
    (evaluate_ok_iff ..).1 h
  exact (evaluate_ok_iff ..).2 ⟨hm, ha, o, jwt, did, key, sig, msg, ho, ⟨h0, h1, h2, h3, h4⟩, hk, hs,
    hmsg, rfl⟩

/-- C34 does not hold. -/
theorem C34_refuted : ¬ C34_statement := by
  intro h
  obtain ⟨resp, he⟩ := Ex.evaluates
  have := (h _ _ _ _ _ _ _ _ _ (C34_any_credential_granted _ _ _ _ _ _ _ _ _
    (.msoMdoc (str! "passport") none none) he)).2.1
  revert this
  decide

/-- C34, the part that holds: the credential returned is the one requested. Missing: that it was
offered and is supported. -/
theorem C34_requested_partial (resp : CredentialIssuerEvaluateRequestResponse)
    (h : evaluateCredentialRequest x now m r offer asm doc options = .ok resp) :
    resp.credential = r.format := by
  obtain ⟨-, -, o, jwt, did, key, sig, msg, -, -, -, -, -, rfl⟩ := (evaluate_ok_iff ..).1 h
  rfl

end

/-! ### The hypotheses at the example request -/

/-- C22, C25, C27 and C34. -/
example : ∃ resp did pop, evaluateCredentialRequest Ex.ext 1000 Ex.metadata Ex.request (some Ex.pinOffer) none
    (some Ex.didDoc) Ex.options = .ok resp ∧ (1000 : Time) ≤ nonceExpiry ⟨100, str! "nonce", 0⟩ ∧
    resp.subjectId = some did ∧ resp.proofOfPossession = some pop ∧
    KeyResolved Ex.ext Ex.header (some Ex.didDoc) did pop.publicKey ∧
    resp.proofOfPossession.map (·.algorithm) = some .EdDSA ∧ resp.credential = Ex.mdoc := by
  obtain ⟨resp, h⟩ := Ex.evaluates
  obtain ⟨-, -, -, p, jwt, c, -, -, -, hc, -, ht, -⟩ := C22_bound _ _ _ _ _ _ _ _ _ h
  obtain ⟨did, pop, h1, h2, -, h3⟩ := C25_key _ _ _ _ _ _ _ _ _ _ _ h rfl Ex.fromStr_request
  have h4 := C27_reported_partial _ _ _ _ _ _ _ _ _ _ _ h rfl Ex.fromStr_request
  have h5 := C34_requested_partial _ _ _ _ _ _ _ _ _ h
  cases hc
  exact ⟨resp, did, pop, h, ht, h1, h2, h3, h4, h5⟩

/-- C26. -/
example : ∃ pre resp, preEvaluateCredentialRequest Ex.ext Ex.request = .ok pre ∧
    evaluateCredentialRequest Ex.ext 1000 Ex.metadata Ex.request (some Ex.pinOffer) none (some Ex.didDoc) Ex.options
      = .ok resp ∧ pre.did = resp.subjectId ∧ pre.did ≠ none := by
  obtain ⟨resp, h⟩ := Ex.evaluates
  have h1 := C26_pre_succeeds _ _ _ _ _ _ _ _ _ Ex.request_valid h
  exact ⟨_, resp, h1, h, C26_same_did _ _ _ _ _ _ _ _ _ _ h1 h⟩

/-- C24 and C25: an offer for both flows; and a key in the header. -/
example : ∃ resp, evaluateCredentialRequest Ex.ext 1000 Ex.metadata Ex.request (some Ex.bothOffer) none
    (some Ex.didDoc) Ex.options = .ok resp ∧ Ex.plainBody.issuer = clientId Ex.options := by
  have hb : Bound Ex.ext 1000 Ex.metadata Ex.request Ex.bothOffer Ex.options
      ⟨Ex.header, Ex.plainBody, some (str! "c2ln")⟩ :=
    ⟨Ex.bound.1, Ex.bound.2, Ex.bound.3, Ex.bound.4, fun _ => rfl⟩
  obtain ⟨resp, h⟩ := (C22_accept_iff _ _ _ _ _ _ _ _).2 ⟨Ex.distinct_metadata, rfl, Ex.bothOffer, _, _, _, rfl, hb,
    Ex.keyResolved, .inl (by simp)⟩
  exact ⟨resp, h, C24_client_id _ _ _ _ _ _ _ _ _ _ _ h rfl Ex.fromStr_request (.inr (by
    unfold PurelyPreAuthorized; decide))⟩
example (resp : CredentialIssuerEvaluateRequestResponse) : evaluateCredentialRequest Ex.ext 1000 Ex.metadata
    ⟨Ex.mdoc, some ⟨str! "jwt", compact Ex.ext ⟨proofTyp, .EdDSA, some (.jwk (str! "{}"))⟩ Ex.plainBody none⟩⟩
    (some Ex.pinOffer) none (some Ex.didDoc) Ex.options ≠ .ok resp :=
  C25_only_kid _ _ _ _ _ _ _ _ _ _ rfl (fromStr_compact _ _ _ _ Ex.timesOk_plainBody (by simp)) (by simp) _

/-- C28: a proof that expires together with the nonce. -/
example : ∃ resp, evaluateCredentialRequest Ex.ext 1000 Ex.metadata ⟨Ex.mdoc, some ⟨str! "jwt",
      compact Ex.ext Ex.header { Ex.plainBody with expiresAt := some 100000000000 } (some [])⟩⟩ (some Ex.pinOffer) none
    (some Ex.didDoc) Ex.options = .ok resp ∧ (1000 : Time) ≤ 100000000000 := by
  have ht : TimesOk Ex.ext { Ex.plainBody with expiresAt := some 100000000000 } :=
    Ex.timesOk _ (by decide) (by simp [Ex.plainBody]) (by rintro t ⟨⟩; decide)
  have hf := fromStr_compact Ex.ext Ex.header _ (some []) ht (by simp [NoDot])
  obtain ⟨resp, h⟩ := (C22_accept_iff Ex.ext 1000 Ex.metadata ⟨Ex.mdoc, some ⟨str! "jwt", compact Ex.ext Ex.header
      { Ex.plainBody with expiresAt := some 100000000000 } (some [])⟩⟩ _ none _ Ex.options).2
    ⟨Ex.distinct_metadata, rfl, Ex.pinOffer, _, _, _, rfl,
      ⟨⟨_, rfl, hf⟩, Ex.bound.2, Ex.bound.3, Ex.bound.4, Ex.bound.5⟩, Ex.keyResolved, .inl (by simp)⟩
  exact ⟨resp, h, C28_nonce_bounds_exp_partial _ _ _ _ _ _ _ _ _ _ _ _ _ h rfl hf rfl rfl (by decide)⟩

end Oid4vci
