import Verif.Props.Evaluate

/-! C46: panics; C51: the nonce lifetime. -/

namespace Oid4vci

open Spec CredentialIssuer

/-! ### Which functions panic -/

theorem metadata_validate_ne_panic (m : CredentialIssuerMetadata) : m.validate ≠ .panic := by
  unfold CredentialIssuerMetadata.validate
  split
  · simp
  · rw [validateAll_ok _ CredentialSupported.validate_ok]; simp

theorem fromStr_ne_panic (x : Ext) (s : Str) : ProofJwt.fromStr x s ≠ .panic := by
  unfold ProofJwt.fromStr
  repeat' split
  all_goals simp

theorem jwt_validate_ne_panic (j : ProofJwt) : j.validate ≠ .panic := by
  unfold ProofJwt.validate ProofJwtHeader.validate ProofJwtBody.validate
  split <;> simp

theorem extractDid_ne_panic (x : Ext) (j : ProofJwt) : j.extractDid x ≠ .panic := by
  unfold ProofJwt.extractDid
  repeat' split
  all_goals simp

theorem jwkToPublicKeyBytes_ne_panic (k : Jwk) : ProofJwtHeader.jwkToPublicKeyBytes k ≠ .panic := by
  unfold ProofJwtHeader.jwkToPublicKeyBytes
  simp only
  repeat' split
  all_goals first | exact Res.okOr_ne_panic | simp

theorem extractSignature_ne_panic (x : Ext) (j : ProofJwt) : j.extractSignature x ≠ .panic := by
  unfold ProofJwt.extractSignature
  simp only
  split <;> simp

/-- The key lookup panics exactly when the DID URL selects something that is not a verification
method. -/
theorem extractKeyAndAlg_panic (x : Ext) (j : ProofJwt) (doc : Option x.Doc) :
    j.extractKeyAndAlg x doc = .panic ↔ ∃ kid url d, j.header.additionalHeader = some (.keyId kid) ∧
      x.didUrl kid = .ok url ∧ doc = some d ∧ x.select d url = .other := by
  unfold ProofJwt.extractKeyAndAlg ProofJwtHeader.extractKeyAndAlg
  cases hk : j.header.additionalHeader with
  | none => simp
  | some a =>
    cases a with
    | x5c k => simp
    | jwk k =>
      simp only [Option.some.injEq, reduceCtorEq, false_and, exists_const]
      split
      · simp
      · rw [Res.bind_eq_panic]
        refine iff_of_false ?_ (by simp)
        rintro (h | ⟨_, -, h⟩)
        · exact jwkToPublicKeyBytes_ne_panic _ h
        · cases h
    | keyId kid =>
      simp only [Option.some.injEq, ProofJwtAdditionalHeader.keyId.injEq, exists_and_left,
        exists_eq_left']
      cases hd : x.didUrl kid with
      | error m => simp
      | ok url =>
        cases doc with
        | none => simp
        | some d =>
          simp only [Except.ok.injEq, Option.some.injEq, exists_eq_left']
          cases hs : x.select d url with
          | error m => simp
          | other => simp
          | verificationMethod vm =>
            simp only [reduceCtorEq, iff_false]
            split
            · simp
            · rw [Res.bind_eq_panic]
              rintro (h | ⟨_, -, h⟩)
              · exact jwkToPublicKeyBytes_ne_panic _ h
              · cases h

theorem checkNonceLifetime_panic {options : Option EvaluateCredentialRequestOptions} {now : Time} :
    checkNonceLifetime options now = .panic ↔
      ∃ c, nonceOptions options = some c ∧ Time.max < nonceExpiry c := by
  have hb : options.bind (·.cNonce) = nonceOptions options := by cases options <;> rfl
  unfold checkNonceLifetime
  rw [hb]
  cases nonceOptions options with
  | none => simp
  | some c =>
    simp only [Option.some.injEq, exists_eq_left']
    unfold Time.addSeconds
    have : c.cNonceCreatedAt + ↑c.cNonceExpiresIn.toNat * Time.nsPerSec = nonceExpiry c := rfl
    rw [this]
    by_cases h1 : nonceExpiry c ≤ Time.max
    · rw [if_pos h1]
      refine iff_of_false ?_ (not_lt.2 h1)
      simp only [Res.bind_ok]
      split <;> simp
    · rw [if_neg h1]
      exact iff_of_true rfl (not_le.1 h1)

theorem checkNonceLifetime_err {options : Option EvaluateCredentialRequestOptions} {now : Time}
    {e : CredentialIssuerError} :
    checkNonceLifetime options now = .err e ↔ ∃ c, nonceOptions options = some c ∧
      nonceExpiry c ≤ Time.max ∧ nonceExpiry c < now ∧ e = .cNonceIsExpired now (nonceExpiry c) := by
  have hb : options.bind (·.cNonce) = nonceOptions options := by cases options <;> rfl
  unfold checkNonceLifetime
  rw [hb]
  cases nonceOptions options with
  | none => simp
  | some c =>
    simp only [Option.some.injEq, exists_eq_left']
    unfold Time.addSeconds
    have : c.cNonceCreatedAt + ↑c.cNonceExpiresIn.toNat * Time.nsPerSec = nonceExpiry c := rfl
    rw [this]
    by_cases h1 : nonceExpiry c ≤ Time.max
    · rw [if_pos h1]
      simp only [Res.bind_ok]
      by_cases h2 : nonceExpiry c < now
      · rw [if_pos h2]; simp [h1, h2, eq_comm]
      · rw [if_neg h2]; simp [h2]
    · rw [if_neg h1]; simp [h1]

section

variable (x : Ext) (now : Time) (m : CredentialIssuerMetadata) (r : CredentialRequest)
  (offer : Option CredentialOffer) (asm : Option AuthorizationServerMetadata) (doc : Option x.Doc)
  (options : Option EvaluateCredentialRequestOptions)

/-! ### C46 -/

/-- C46, full statement. -/
def C46_statement : Prop :=
  (∀ (x : Ext) now m r offer asm doc options,
    evaluateCredentialRequest x now m r offer asm doc options ≠ .panic) ∧
  (∀ r offer options, AccessToken.evaluateAccessTokenRequest r offer options ≠ .panic) ∧
  (∀ (x : Ext) r, preEvaluateCredentialRequest x r ≠ .panic) ∧
  (∀ m cs endpoint a p, createOffer m cs endpoint a p ≠ .panic) ∧
  ∀ (x : Ext) now r c nonce, createCredentialSuccessResponse x now r c nonce ≠ .panic

/-- C46. When evaluation panics: the metadata is valid, an offer and no server metadata is supplied,
and either the end of the nonce's lifetime is not representable, or the request is fine up to its
key, and its DID URL selects something that is not a verification method. -/
theorem C46_evaluate_panics_iff :
    evaluateCredentialRequest x now m r offer asm doc options = .panic ↔
      DistinctIds m.credentialsSupported ∧ asm = none ∧ ∃ o, offer = some o ∧
      ((∃ c, nonceOptions options = some c ∧ Time.max < nonceExpiry c) ∨
        ∃ jwt kid url d, Bound x now m r o options jwt ∧
          jwt.header.additionalHeader = some (.keyId kid) ∧ x.didUrl kid = .ok url ∧
          doc = some d ∧ x.select d url = .other) := by
  unfold evaluateCredentialRequest
  have hb : options.bind (·.cNonce) = nonceOptions options := by cases options <;> rfl
  simp only [Res.bind_eq_panic, Res.mapErr_eq_panic, Res.mapErr_eq_ok, Res.okOr_eq_ok,
    Res.okOr_ne_panic, metadata_validate_ne_panic, false_or, offer_validate_ok, reduceCtorEq]
  constructor
  · rintro ⟨_, hm, o, rfl, _, -, h⟩
    cases asm with
    | some a =>
      simp only [Res.bind_eq_panic] at h
      obtain h | ⟨_, -, h⟩ := h
      · cases h
      · cases h
    | none =>
      refine ⟨(metadata_validate_iff m).1 hm, rfl, o, rfl, ?_⟩
      simp only [Res.bind_eq_panic, checkNonceLifetime_panic] at h
      obtain h | ⟨_, hl, h⟩ := h
      · exact .inl h
      · right
        cases hp : r.proof with
        | none => rw [hp] at h; cases h
        | some p =>
          rw [hp] at h
          simp only [Res.bind_eq_panic, Res.mapErr_eq_panic, Res.mapErr_eq_ok, fromStr_ne_panic,
            jwt_validate_ne_panic, false_or] at h
          obtain ⟨jwt, hj, _, hv, h⟩ := h
          obtain hn | ⟨_, hn, h⟩ := h
          · unfold ProofJwt.checkNonce at hn
            split at hn <;> cases hn
          have hi : (if shouldValidateIss options o then
              (jwt.checkIss (options.bind (·.clientId))).mapErr CredentialIssuerError.jwtError
              else .ok ()) = .ok () := by
            split at h
            · rename_i hsv
              rw [if_pos hsv]
              simp only [Res.bind_eq_panic] at h
              obtain h | ⟨_, h, -⟩ := h
              · rw [Res.mapErr_eq_panic] at h
                unfold ProofJwt.checkIss at h
                split at h <;> cases h
              · exact h
            · rename_i hsv
              rw [if_neg hsv]
          rw [← ite_bind, hi] at h
          simp only [Res.bind_ok, Res.bind_eq_panic, Res.mapErr_eq_ok, Res.mapErr_eq_panic,
            extractSignature_ne_panic, extractDid_ne_panic, false_or] at h
          obtain ha | ⟨_, ha, h⟩ := h
          · unfold ProofJwt.checkAud at ha
            split at ha <;> cases ha
          obtain hk | ⟨k, hk, sig, hs, h⟩ := h
          · obtain ⟨kid, url, d, h1, h2, h3, h4⟩ := (extractKeyAndAlg_panic x jwt doc).1 hk
            refine ⟨jwt, kid, url, d, ?_, h1, h2, h3, h4⟩
            rw [hb] at hn
            unfold ProofJwt.checkNonce at hn
            split at hn
            · rename_i hn'
              cases hc : nonceOptions options with
              | none => rw [hc] at hn'; cases hn'
              | some c =>
                rw [hc] at hn'
                have hl := checkNonceLifetime_ok.1 hl c (by rw [hc]; rfl)
                refine ⟨⟨p, hp, hj⟩, (C19_typ jwt).1 hv, ⟨c, hc, ?_, hl⟩, ?_, ?_⟩
                · exact Option.some.inj hn'
                · unfold ProofJwt.checkAud at ha
                  split at ha
                  · assumption
                  · cases ha
                · intro hi'
                  cases options with
                  | none => cases hc
                  | some op =>
                    rw [if_pos ((shouldValidateIss_iff op o).2 hi'), Res.mapErr_eq_ok] at hi
                    unfold ProofJwt.checkIss at hi
                    split at hi
                    · assumption
                    · cases hi
            · cases hn
          · obtain ⟨msg, hmsg⟩ := signable_ok x jwt
            rw [hmsg] at h
            simp at h
  · rintro ⟨hm, rfl, o, rfl, h⟩
    refine ⟨(), (metadata_validate_iff m).2 hm, o, rfl, (), trivial, ?_⟩
    simp only [Res.bind_eq_panic, checkNonceLifetime_panic]
    rcases h with h | ⟨jwt, kid, url, d, ⟨⟨p, hp, hj⟩, hv, ⟨c, hc, hn, hl⟩, ha, hi⟩, hk⟩
    · exact .inl h
    · refine .inr ⟨(), checkNonceLifetime_ok.2 fun c' hc' => ?_, ?_⟩
      · rw [hc] at hc'; cases hc'; exact hl
      · rw [hp]
        simp only [Res.bind_eq_panic, Res.mapErr_eq_panic, Res.mapErr_eq_ok]
        refine .inr ⟨jwt, hj, .inr ⟨(), (C19_typ jwt).2 hv, .inr ⟨(), ?_, ?_⟩⟩⟩
        · rw [hb, hc]
          unfold ProofJwt.checkNonce
          rw [if_pos (by simp [hn])]
        · have hi' : (if shouldValidateIss options o then
              (jwt.checkIss (options.bind (·.clientId))).mapErr CredentialIssuerError.jwtError
              else .ok ()) = .ok () := by
            cases options with
            | none => cases hc
            | some op =>
              by_cases hsv : shouldValidateIss (some op) o = true
              · rw [if_pos hsv, Res.mapErr_eq_ok]
                unfold ProofJwt.checkIss
                exact if_pos (hi ((shouldValidateIss_iff op o).1 hsv))
              · rw [if_neg hsv]
          rw [← ite_bind, hi']
          simp only [Res.bind_ok, Res.bind_eq_panic, Res.mapErr_eq_ok, Res.mapErr_eq_panic]
          refine .inr ⟨(), ?_, .inl ((extractKeyAndAlg_panic x jwt doc).2 ⟨kid, url, d, hk⟩)⟩
          unfold ProofJwt.checkAud
          rw [if_pos ha]

/-- C46 is violated by every call with valid metadata and an offer when the end of the nonce's
lifetime is not representable. -/
theorem C46_overflow (o : CredentialOffer) (c : CNonceOptions) (hm : DistinctIds m.credentialsSupported)
    (hc : nonceOptions options = some c) (hx : Time.max < nonceExpiry c) :
    evaluateCredentialRequest x now m r (some o) none doc options = .panic :=
  (C46_evaluate_panics_iff ..).2 ⟨hm, rfl, o, rfl, .inl ⟨c, hc, hx⟩⟩

/-- C46 does not hold, with a representable creation time. -/
theorem C46_refuted : ¬ C46_statement := fun h =>
  h.1 Ex.ext 0 Ex.metadata Ex.request (some Ex.pinOffer) none none
    (some ⟨some ⟨1, str! "nonce", Time.max⟩, none⟩)
    (C46_overflow _ _ _ _ _ _ _ _ Ex.distinct_metadata rfl (by decide +kernel))

/-- C46 for evaluation when the lifetime ends before the year 262144 and DID URLs select verification
methods only. Missing: the other calls, see `C46_evaluate_panics_iff`. -/
theorem C46_evaluate_partial
    (h1 : ∀ c, nonceOptions options = some c → nonceExpiry c ≤ Time.max)
    (h2 : ∀ d ∈ doc, ∀ url, x.select d url ≠ .other) :
    evaluateCredentialRequest x now m r offer asm doc options ≠ .panic := by
  intro h
  obtain ⟨-, -, o, -, ⟨c, hc, hx⟩ | ⟨jwt, kid, url, d, -, -, -, hd, hs⟩⟩ :=
    (C46_evaluate_panics_iff ..).1 h
  · exact absurd (h1 c hc) (not_le.2 hx)
  · exact h2 d hd url hs

theorem request_validate_ne_panic : r.validate x ≠ .panic := by
  unfold CredentialRequest.validate CredentialRequestProof.validate
  split
  · split
    · simp
    · simp only [ne_eq, Res.bind_eq_panic, fromStr_ne_panic, jwt_validate_ne_panic, false_or]
      simp
  · simp

/-- C46 for the other entry points, without conditions. -/
theorem C46_others_partial :
    (∀ r offer options, AccessToken.evaluateAccessTokenRequest r offer options ≠ .panic) ∧
    (∀ (x : Ext) r, preEvaluateCredentialRequest x r ≠ .panic) ∧
    (∀ m cs endpoint a p, createOffer m cs endpoint a p ≠ .panic) ∧
    ∀ (x : Ext) now r c nonce, createCredentialSuccessResponse x now r c nonce ≠ .panic := by
  have hres : ∀ m (cs : CredentialOrIds), CredentialOrIds.resolveAll m cs ≠ .panic := by
    intro m cs
    induction cs with
    | nil => simp [CredentialOrIds.resolveAll]
    | cons c cs ih =>
      unfold CredentialOrIds.resolveAll
      simp only [ne_eq, Res.bind_eq_panic]
      rintro (h | ⟨_, -, h | ⟨_, -, h⟩⟩)
      · unfold CredentialOrId.resolve at h
        repeat' split at h
        all_goals cases h
      · exact ih h
      · cases h
  refine ⟨fun r offer options h => ?_, fun x r h => ?_, fun m cs endpoint a p h => ?_,
    fun x now r c nonce h => ?_⟩
  · have hg : r.grantType.validate ≠ .panic := by
      unfold GrantType.validate
      intro h
      repeat' split at h
      all_goals try cases h
      simp only at h
      split at h <;> cases h
    have ha : ∀ a, AccessToken.validateAuthorizedCodeFlow a r.grantType ≠ .panic := by
      intro a
      unfold AccessToken.validateAuthorizedCodeFlow
      split <;> simp
    have hp : ∀ p, AccessToken.validatePreAuthorizedCodeFlow options p r.grantType ≠ .panic := by
      intro p h
      unfold AccessToken.validatePreAuthorizedCodeFlow at h
      split at h
      · cases h
      · rename_i code pin _
        cases pin with
        | none =>
          simp only [Res.bind_ok] at h
          split at h <;> cases h
        | some pin =>
          simp only [Res.bind_eq_panic, Res.okOr_ne_panic, false_or] at h
          obtain ⟨_, -, h⟩ := h
          split at h
          · cases h
          · simp only [Res.bind_ok] at h
            split at h <;> cases h
    unfold AccessToken.evaluateAccessTokenRequest AccessTokenRequest.validate at h
    simp only [Res.bind_eq_panic, Res.mapErr_eq_panic] at h
    obtain (h | ⟨_, -, h⟩) | ⟨_, -, h⟩ := h
    · exact hg h
    · cases h
    · repeat' split at h
      all_goals first | cases h | exact ha _ h | exact hp _ h
  · unfold preEvaluateCredentialRequest at h
    simp only [Res.bind_eq_panic, Res.mapErr_eq_panic, request_validate_ne_panic, false_or] at h
    obtain ⟨_, -, h⟩ := h
    split at h
    · simp only [Res.bind_eq_panic, Res.mapErr_eq_panic, fromStr_ne_panic, jwt_validate_ne_panic,
        extractDid_ne_panic, false_or] at h
      obtain ⟨_, -, _, -, _, -, h⟩ := h
      cases h
    · cases h
  · unfold createOffer CredentialOffer.urlEncode at h
    simp only [Res.bind_eq_panic, Res.mapErr_eq_panic, metadata_validate_ne_panic, false_or] at h
    obtain ⟨_, -, h⟩ := h
    split at h
    · cases h
    · simp only [Res.bind_eq_panic] at h
      obtain h | ⟨_, -, h | ⟨_, -, h⟩⟩ := h
      · exact hres _ _ h
      · cases h
      · cases h
  · unfold createCredentialSuccessResponse at h
    simp only [Res.bind_eq_panic, Res.mapErr_eq_panic, request_validate_ne_panic, false_or] at h
    obtain ⟨_, -, h⟩ := h
    split at h
    · simp only [Res.bind_eq_panic, Res.mapErr_eq_panic] at h
      obtain h | ⟨_, -, h | ⟨_, -, h⟩⟩ := h
      · unfold CredentialFormatProfileOrEncoded.tryFrom at h
        repeat' split at h
        all_goals cases h
      · cases h
      · cases h
    · cases h
    · cases h

example : (∀ c, nonceOptions Ex.options = some c → nonceExpiry c ≤ Time.max) ∧
    ∀ d ∈ some Ex.didDoc, ∀ url, Ex.ext.select d url ≠ .other := by
  refine ⟨fun c hc => ?_, fun d _ url => ?_⟩
  · cases hc; decide +kernel
  · unfold Ex.ext; simp only; split <;> simp

/-! ### C51 -/

/-- C51. Evaluation reports an expired nonce exactly when the metadata is valid, an offer and no server
metadata is supplied, and the evaluation time lies after the end of the lifetime; the error tells both
instants. (A lifetime whose end is not representable panics, see C46.) -/
theorem C51_expired_iff (a b : Time) :
    evaluateCredentialRequest x now m r offer asm doc options = .err (.cNonceIsExpired a b) ↔
      DistinctIds m.credentialsSupported ∧ offer ≠ none ∧ asm = none ∧
      ∃ c, nonceOptions options = some c ∧ nonceExpiry c ≤ Time.max ∧ nonceExpiry c < now ∧
        a = now ∧ b = nonceExpiry c := by
  unfold evaluateCredentialRequest
  simp only [Res.bind_eq_err, Res.mapErr_eq_err, Res.mapErr_eq_ok, Res.okOr_eq_ok, Res.okOr_eq_err,
    reduceCtorEq, and_false, exists_false, exists_const, false_or, offer_validate_ok,
    true_and]
  constructor
  · rintro ⟨_, hm, o, rfl, h⟩
    cases asm with
    | some a =>
      simp only [Res.bind_eq_err, Res.mapErr_eq_err] at h
      obtain ⟨_, _, h⟩ | ⟨_, -, h⟩ := h <;> cases h
    | none =>
      refine ⟨(metadata_validate_iff m).1 hm, by simp, rfl, ?_⟩
      simp only [Res.bind_eq_err, checkNonceLifetime_err] at h
      obtain ⟨c, hc, h1, h2, h3⟩ | ⟨_, -, h⟩ := h
      · cases h3
        exact ⟨c, hc, h1, h2, rfl, rfl⟩
      · split at h
        · simp only [Res.bind_eq_err, Res.mapErr_eq_err, reduceCtorEq, and_false, exists_false,
            false_or] at h
          obtain ⟨jwt, -, _, -, _, -, h⟩ := h
          split at h
          · simp [Res.bind_eq_err, Res.mapErr_eq_err, -Res.mapErr] at h
          · simp [Res.bind_eq_err, Res.mapErr_eq_err, -Res.mapErr] at h
        · cases h
  · rintro ⟨hm, ho, rfl, c, hc, h1, h2, rfl, rfl⟩
    cases offer with
    | none => exact absurd rfl ho
    | some o =>
      refine ⟨(), (metadata_validate_iff m).2 hm, o, rfl, ?_⟩
      simp only [Res.bind_eq_err, checkNonceLifetime_err]
      exact .inl ⟨c, hc, h1, h2, rfl⟩

/-- C51. Expiry is permanent. -/
theorem C51_permanent (now' a b : Time) (hle : now ≤ now')
    (h : evaluateCredentialRequest x now m r offer asm doc options = .err (.cNonceIsExpired a b)) :
    evaluateCredentialRequest x now' m r offer asm doc options = .err (.cNonceIsExpired now' b) := by
  obtain ⟨hm, ho, ha, c, hc, h1, h2, -, hb⟩ := (C51_expired_iff ..).1 h
  exact (C51_expired_iff ..).2 ⟨hm, ho, ha, c, hc, h1, lt_of_lt_of_le h2 hle, rfl, hb⟩

/-- C51. Until the end of the lifetime, that instant included, the outcome does not depend on the
evaluation time. -/
theorem C51_time_independent (now' : Time) (c : CNonceOptions) (hc : nonceOptions options = some c)
    (h : now ≤ nonceExpiry c) (h' : now' ≤ nonceExpiry c) :
    evaluateCredentialRequest x now m r offer asm doc options
      = evaluateCredentialRequest x now' m r offer asm doc options := by
  have key : checkNonceLifetime options now = checkNonceLifetime options now' := by
    have hb : options.bind (·.cNonce) = nonceOptions options := by cases options <;> rfl
    unfold checkNonceLifetime
    rw [hb, hc]
    simp only
    unfold Time.addSeconds
    have : c.cNonceCreatedAt + ↑c.cNonceExpiresIn.toNat * Time.nsPerSec = nonceExpiry c := rfl
    rw [this]
    split
    · simp only [Res.bind_ok, if_neg (not_lt.2 h), if_neg (not_lt.2 h')]
    · rfl
  unfold evaluateCredentialRequest
  rw [key]

/-- C51. A request accepted once is accepted at every instant up to the end of the lifetime, and
reported as expired at every later one. -/
theorem C51_accepted_until_expiry (resp : CredentialIssuerEvaluateRequestResponse)
    (h : evaluateCredentialRequest x now m r offer asm doc options = .ok resp) :
    ∃ c, nonceOptions options = some c ∧ ∀ now',
      (now' ≤ nonceExpiry c →
        evaluateCredentialRequest x now' m r offer asm doc options = .ok resp) ∧
      (nonceExpiry c < now' → evaluateCredentialRequest x now' m r offer asm doc options
        = .err (.cNonceIsExpired now' (nonceExpiry c))) := by
  obtain ⟨hm, ha, o, jwt, did, key, sig, msg, ho, ⟨-, -, ⟨c, hc, -, hl, hx⟩, -⟩, -⟩ :=
    (evaluate_ok_iff ..).1 h
  refine ⟨c, hc, fun now' => ⟨fun h' => ?_, fun h' => ?_⟩⟩
  · rw [← C51_time_independent x now m r offer asm doc options now' c hc hl h', h]
  · exact (C51_expired_iff ..).2 ⟨hm, by simp [ho], ha, c, hc, hx, h', rfl, rfl⟩

example : evaluateCredentialRequest Ex.ext 100000000001 Ex.metadata Ex.request (some Ex.pinOffer) none
    (some Ex.didDoc) Ex.options = .err (.cNonceIsExpired 100000000001 100000000000) :=
  (C51_expired_iff ..).2 ⟨Ex.distinct_metadata, by simp, rfl, _, rfl, by decide +kernel,
    by decide +kernel, rfl, by decide +kernel⟩

end

/-- The nonce of the example stays expired, and makes no difference before. -/
example : evaluateCredentialRequest Ex.ext 200000000000 Ex.metadata Ex.request (some Ex.pinOffer) none
    (some Ex.didDoc) Ex.options = .err (.cNonceIsExpired 200000000000 100000000000) :=
  C51_permanent Ex.ext 100000000001 _ _ _ _ _ _ 200000000000 _ _ (by decide) ((C51_expired_iff ..).2
    ⟨Ex.distinct_metadata, by simp, rfl, _, rfl, by decide +kernel, by decide +kernel, rfl, by decide +kernel⟩)
example : ∃ resp, evaluateCredentialRequest Ex.ext 99999999999 Ex.metadata Ex.request (some Ex.pinOffer) none
    (some Ex.didDoc) Ex.options = .ok resp := by
  rw [C51_time_independent Ex.ext 99999999999 _ _ _ _ _ _ 1000 _ rfl (by decide +kernel) (by decide +kernel)]
  exact Ex.evaluates

end Oid4vci
