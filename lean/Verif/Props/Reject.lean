import Verif.Spec.Reject
import Verif.Props.Panic

/-! C60: the errors of credential request evaluation. -/

namespace Oid4vci

open Spec CredentialIssuer

theorem keyUnusable_err {k : Jwk} {e : JwtError} (h : KeyUnusable k e) :
    ProofJwtHeader.jwkToPublicKeyBytes k = .err e := by
  obtain ⟨alg, params⟩ := k
  cases h with
  | symmetricOrRsa hp =>
    simp only at hp
    subst hp
    cases alg <;> rfl
  | notEdDSA px hp ha =>
    simp only at hp ha
    subst hp
    unfold ProofJwtHeader.jwkToPublicKeyBytes
    cases alg with
    | none => rfl
    | some a =>
      simp only [Option.getD_some, ne_eq, Option.some.injEq] at ha ⊢
      rw [if_neg (show ¬ a = SsiAlg.edDSA from ha)]; rfl
  | noX hp ha =>
    simp only at hp ha
    subst hp ha
    rfl

theorem key_cases (k : Jwk) : (∃ b, KeyBytes k b) ∨ ∃ e, KeyUnusable k e := by
  obtain ⟨alg, params⟩ := k
  cases params with
  | okp b => exact .inl ⟨b, .inl rfl⟩
  | other => exact .inr ⟨_, .symmetricOrRsa rfl⟩
  | ec px =>
    by_cases ha : alg = some ⟨str! "EdDSA"⟩
    · cases px with
      | none => exact .inr ⟨_, .noX rfl ha⟩
      | some b => exact .inl ⟨b, .inr ⟨rfl, ha⟩⟩
    · exact .inr ⟨_, .notEdDSA px rfl ha⟩

theorem keyRejected_err {x : Ext} {j : ProofJwt} {doc : Option x.Doc} {e : JwtError}
    (h : KeyRejected x j.header doc e) : j.extractKeyAndAlg x doc = .err e := by
  unfold ProofJwt.extractKeyAndAlg ProofJwtHeader.extractKeyAndAlg
  cases h with
  | noKey h => rw [h]
  | x5c k h => rw [h]
  | jwkSyntax k msg h h1 => rw [h]; simp only [h1]
  | jwkUnusable k jwk e h h1 h2 => rw [h]; simp only [h1, keyUnusable_err h2]; rfl
  | kidSyntax kid msg h h1 => rw [h]; simp only [h1]
  | noDocument kid url h h1 h2 => rw [h]; simp only [h1, h2]
  | notInDocument kid url d msg h h1 h2 h3 => rw [h]; simp only [h1, h2, h3]
  | notAJwk kid url d vm msg h h1 h2 h3 h4 => rw [h]; simp only [h1, h2, h3, h4]
  | kidUnusable kid url d vm jwk e h h1 h2 h3 h4 h5 =>
    rw [h]; simp only [h1, h2, h3, h4, keyUnusable_err h5]; rfl

theorem keyFound_ok {x : Ext} {j : ProofJwt} {doc : Option x.Doc} (h : KeyFound x j.header doc) :
    ∃ k, j.extractKeyAndAlg x doc = .ok k := by
  rcases h with ⟨did, key, h⟩ | ⟨k, jwk, key, h, h1, h2⟩
  · exact ⟨_, (keyResolved_iff.2 ⟨rfl, did, rfl, h⟩).1⟩
  · refine ⟨(key, j.header.alg), ?_⟩
    unfold ProofJwt.extractKeyAndAlg ProofJwtHeader.extractKeyAndAlg
    rw [h]
    simp only [h1, jwkToPublicKeyBytes_ok.2 h2]
    rfl

/-- The key lookup: no key, a key, or a DID URL selecting something else. -/
theorem keyLookup_cases (x : Ext) (h : ProofJwtHeader) (doc : Option x.Doc) :
    (∃ e, KeyRejected x h doc e) ∨ KeyFound x h doc ∨
      ∃ kid url d, h.additionalHeader = some (.keyId kid) ∧ x.didUrl kid = .ok url ∧ doc = some d ∧
        x.select d url = .other := by
  cases ha : h.additionalHeader with
  | none => exact .inl ⟨_, .noKey ha⟩
  | some a =>
    cases a with
    | x5c k => exact .inl ⟨_, .x5c k ha⟩
    | jwk k =>
      cases hp : x.parseJwk k with
      | error msg => exact .inl ⟨_, .jwkSyntax k msg ha hp⟩
      | ok jwk =>
        rcases key_cases jwk with ⟨b, hb⟩ | ⟨e, he⟩
        · exact .inr (.inl (.inr ⟨k, jwk, b, ha, hp, hb⟩))
        · exact .inl ⟨_, .jwkUnusable k jwk e ha hp he⟩
    | keyId kid =>
      cases hd : x.didUrl kid with
      | error msg => exact .inl ⟨_, .kidSyntax kid msg ha hd⟩
      | ok url =>
        cases doc with
        | none => exact .inl ⟨_, .noDocument kid url ha hd rfl⟩
        | some d =>
          cases hs : x.select d url with
          | error msg => exact .inl ⟨_, .notInDocument kid url d msg ha hd rfl hs⟩
          | other => exact .inr (.inr ⟨kid, url, d, rfl, hd, rfl, hs⟩)
          | verificationMethod vm =>
            cases hj : x.getJwk vm with
            | error msg => exact .inl ⟨_, .notAJwk kid url d vm msg ha hd rfl hs hj⟩
            | ok jwk =>
              rcases key_cases jwk with ⟨b, hb⟩ | ⟨e, he⟩
              · exact .inr (.inl (.inl ⟨_, b, kid, url, d, vm, jwk, ha, hd, rfl, rfl, hs, hj, hb⟩))
              · exact .inl ⟨_, .kidUnusable kid url d vm jwk e ha hd rfl hs hj he⟩

theorem cut_count (c : Char) (s : Str) :
    ((cut c s).2 = none ↔ s.count c = 0) ∧ ∀ t, (cut c s).2 = some t → s.count c = t.count c + 1 := by
  induction s with
  | nil => simp [cut]
  | cons a s ih =>
    unfold cut
    by_cases h : a = c
    · subst h; simp
    · simp only [if_neg h, List.count_cons_of_ne h]
      exact ih

theorem splitN3_count (s : Str) : (splitN 3 '.' s)[2]? = none ↔ s.count '.' < 2 := by
  rw [splitN_three]
  obtain ⟨h0, h1⟩ := cut_count '.' s
  cases hc : (cut '.' s).2 with
  | none => simp [h0.1 hc]
  | some t =>
    simp only [Option.bind_some, h1 t hc]
    rw [(cut_count '.' t).1]
    omega

theorem extractSignature_err (x : Ext) (j : ProofJwt) (h : (j.toStr x).count '.' < 2) :
    j.extractSignature x = .err (.signatureNotInJwt (j.toStr x)) := by
  unfold ProofJwt.extractSignature
  simp only [(splitN3_count _).2 h]

theorem extractSignature_ok' (x : Ext) (j : ProofJwt) (h : 2 ≤ (j.toStr x).count '.') :
    ∃ sig, j.extractSignature x = .ok sig := by
  unfold ProofJwt.extractSignature
  simp only
  cases hs : (splitN 3 '.' (j.toStr x))[2]? with
  | none => have := (splitN3_count _).1 hs; omega
  | some sig => exact ⟨_, rfl⟩

section

variable (x : Ext) (now : Time) (m : CredentialIssuerMetadata) (r : CredentialRequest)
  (offer : Option CredentialOffer) (asm : Option AuthorizationServerMetadata) (doc : Option x.Doc)
  (options : Option EvaluateCredentialRequestOptions)

/-- What remains to be done when the JWT has been parsed. -/
def afterParse (o : CredentialOffer) (jwt : ProofJwt) :
    CredentialIssuerResult CredentialIssuerEvaluateRequestResponse := do
  jwt.validate.mapErr .validationError
  (jwt.checkNonce ((options.bind (·.cNonce)).map (·.expectedCNonce))).mapErr .jwtError
  if shouldValidateIss options o then
    (jwt.checkIss (options.bind (·.clientId))).mapErr .jwtError
  else .ok ()
  (jwt.checkAud m.credentialIssuer).mapErr .jwtError
  let (publicKey, algorithm) ← (jwt.extractKeyAndAlg x doc).mapErr .jwtError
  let signature ← (jwt.extractSignature x).mapErr .jwtError
  let message ← (jwt.toSignableMessage x).mapErr .jwtError
  let subjectId ← (jwt.extractDid x).mapErr .jwtError
  .ok ⟨some ⟨algorithm, publicKey, message, signature⟩, subjectId, r.format⟩

theorem evaluate_configured (o : CredentialOffer) (h : Configured m offer asm) (ho : offer = some o) :
    evaluateCredentialRequest x now m r offer asm doc options = (do
      checkNonceLifetime options now
      match r.proof with
      | some p => do
        let jwt ← (ProofJwt.fromStr x p.jwt).mapErr .validationError
        afterParse x m r doc options o jwt
      | none => .err .noProofInCredentialRequest) := by
  obtain ⟨hm, -, rfl⟩ := h
  subst ho
  unfold evaluateCredentialRequest
  rw [(metadata_validate_iff m).2 hm]
  rfl

theorem evaluate_carries (o : CredentialOffer) (jwt : ProofJwt) (h : Configured m offer asm)
    (ho : offer = some o) (ht : Timely now options) (hc : Carries x r jwt) :
    evaluateCredentialRequest x now m r offer asm doc options = afterParse x m r doc options o jwt := by
  obtain ⟨p, hp, hj⟩ := hc
  rw [evaluate_configured x now m r offer asm doc options o h ho, checkNonceLifetime_ok.2 ht, hp]
  simp only [Res.bind_ok, hj]
  rfl

theorem expectedNonce_eq :
    (options.bind (·.cNonce)).map (·.expectedCNonce) = expectedNonce options := by
  cases options with
  | none => rfl
  | some o => cases h : o.cNonce <;> simp [expectedNonce, nonceOptions, h]

theorem clientId_eq : options.bind (·.clientId) = clientId options := by
  cases options <;> rfl

/-- The client check, once the nonce is right. -/
theorem client_check (o : CredentialOffer) (jwt : ProofJwt)
    (hn : expectedNonce options = some jwt.body.nonce) :
    (ClientOk options o jwt → (if shouldValidateIss options o then
      (jwt.checkIss (options.bind (·.clientId))).mapErr CredentialIssuerError.jwtError else .ok ()) =
        .ok ()) ∧
    (¬ ClientOk options o jwt → (if shouldValidateIss options o then
      (jwt.checkIss (options.bind (·.clientId))).mapErr CredentialIssuerError.jwtError else .ok ()) =
        .err (.jwtError (.issuerMismatch (clientId options) jwt.body.issuer))) := by
  cases options with
  | none => simp [expectedNonce, nonceOptions] at hn
  | some op =>
    have hsv := shouldValidateIss_iff op o
    have hcl : clientId (some op) = op.clientId := rfl
    rw [clientId_eq]
    unfold ClientOk
    by_cases h : shouldValidateIss (some op) o = true
    · have h' := hsv.1 h
      rw [if_pos h]
      unfold ProofJwt.checkIss
      by_cases hi : jwt.body.issuer = clientId (some op)
      · rw [if_pos hi]
        exact ⟨fun _ => rfl, fun hc => absurd (fun _ => hi) hc⟩
      · rw [if_neg hi]
        exact ⟨fun hc => absurd (hc h') hi, fun _ => rfl⟩
    · rw [if_neg h]
      exact ⟨fun _ => rfl, fun hc => absurd (fun h' => absurd (hsv.2 h') h) hc⟩

theorem ite_skip {ε β : Type} (c : Prop) [Decidable c] (a : Res ε Unit) (t : Res ε β) :
    (if c then (a >>= fun _ => t) else t) = ((if c then a else .ok ()) >>= fun _ => t) := by
  split <;> rfl

theorem mapErr_ok' {ε ε' α : Type} (f : ε → ε') (a : α) : (Res.ok a : Res ε α).mapErr f = .ok a := rfl

theorem afterParse_typ (o : CredentialOffer) (jwt : ProofJwt) (h : ¬ EqFold jwt.header.typ proofTyp) :
    afterParse x m r doc options o jwt = .err (.validationError (.any
      (str! "jwt header `typ` MUST of of value `openid4vci-proof+jwt`"))) := by
  have hv : jwt.validate =
      .err (.any (str! "jwt header `typ` MUST of of value `openid4vci-proof+jwt`")) := by
    rw [← lowercase_eq_iff] at h
    unfold ProofJwt.validate ProofJwtHeader.validate
    rw [if_pos (show toLowercase jwt.header.typ ≠ ProofJwtHeader.openid4vciProofType from h)]; rfl
  unfold afterParse
  rw [hv]; rfl

theorem afterParse_nonce (o : CredentialOffer) (jwt : ProofJwt) (h : EqFold jwt.header.typ proofTyp)
    (hn : expectedNonce options ≠ some jwt.body.nonce) :
    afterParse x m r doc options o jwt =
      .err (.jwtError (.nonceMismatch (expectedNonce options) jwt.body.nonce)) := by
  unfold afterParse
  rw [(C19_typ jwt).2 h, expectedNonce_eq]
  unfold ProofJwt.checkNonce
  rw [if_neg (fun h => hn h.symm)]
  rfl

theorem afterParse_client (o : CredentialOffer) (jwt : ProofJwt) (h : EqFold jwt.header.typ proofTyp)
    (hn : expectedNonce options = some jwt.body.nonce) (hc : ¬ ClientOk options o jwt) :
    afterParse x m r doc options o jwt =
      .err (.jwtError (.issuerMismatch (clientId options) jwt.body.issuer)) := by
  unfold afterParse
  rw [(C19_typ jwt).2 h, expectedNonce_eq]
  unfold ProofJwt.checkNonce
  rw [if_pos hn.symm]
  simp only [mapErr_ok', Res.bind_ok]
  rw [ite_skip, (client_check options o jwt hn).2 hc]
  rfl

/-- Past the client check. -/
theorem afterParse_aud (o : CredentialOffer) (jwt : ProofJwt) (h : EqFold jwt.header.typ proofTyp)
    (hn : expectedNonce options = some jwt.body.nonce) (hc : ClientOk options o jwt) :
    afterParse x m r doc options o jwt = (do
      (jwt.checkAud m.credentialIssuer).mapErr .jwtError
      let (publicKey, algorithm) ← (jwt.extractKeyAndAlg x doc).mapErr .jwtError
      let signature ← (jwt.extractSignature x).mapErr .jwtError
      let message ← (jwt.toSignableMessage x).mapErr .jwtError
      let subjectId ← (jwt.extractDid x).mapErr .jwtError
      .ok ⟨some ⟨algorithm, publicKey, message, signature⟩, subjectId, r.format⟩) := by
  unfold afterParse
  rw [(C19_typ jwt).2 h, expectedNonce_eq]
  unfold ProofJwt.checkNonce
  rw [if_pos hn.symm]
  simp only [mapErr_ok', Res.bind_ok]
  rw [ite_skip, (client_check options o jwt hn).1 hc]
  rfl

/-- Past the audience check. -/
theorem evaluate_addressed (o : CredentialOffer) (jwt : ProofJwt)
    (h : Addressed x now m r offer asm options o jwt) :
    evaluateCredentialRequest x now m r offer asm doc options = (do
      let (publicKey, algorithm) ← (jwt.extractKeyAndAlg x doc).mapErr .jwtError
      let signature ← (jwt.extractSignature x).mapErr .jwtError
      let message ← (jwt.toSignableMessage x).mapErr .jwtError
      let subjectId ← (jwt.extractDid x).mapErr .jwtError
      .ok ⟨some ⟨algorithm, publicKey, message, signature⟩, subjectId, r.format⟩) := by
  rw [evaluate_carries x now m r offer asm doc options o jwt h.configured h.isOffer h.timely h.carries,
    afterParse_aud x m r doc options o jwt h.typ h.nonce h.client]
  unfold ProofJwt.checkAud
  rw [if_pos h.aud]
  rfl

/-- C60. The error belongs to the fault. -/
theorem rejected_err (e : CredentialIssuerError)
    (h : Rejected x now m r offer asm doc options e) :
    evaluateCredentialRequest x now m r offer asm doc options = .err e := by
  cases h with
  | ids h =>
    have : m.validate = .err (.any
        (str! "Ids in supported credentials of the issuer metadata are not unique")) := by
      have hn := (metadata_validate_iff m).not.2 h
      unfold CredentialIssuerMetadata.validate at hn ⊢
      split
      · rfl
      · rename_i hi
        rw [if_neg hi, validateAll_ok _ CredentialSupported.validate_ok] at hn
        exact absurd rfl hn
    unfold evaluateCredentialRequest
    rw [this]; rfl
  | noOffer h ho =>
    subst ho
    unfold evaluateCredentialRequest
    rw [(metadata_validate_iff m).2 h]; rfl
  | server h ho ha =>
    obtain ⟨o, rfl⟩ := Option.ne_none_iff_exists'.1 ho
    obtain ⟨a, rfl⟩ := Option.ne_none_iff_exists'.1 ha
    unfold evaluateCredentialRequest
    rw [(metadata_validate_iff m).2 h]; rfl
  | expired c h hc h1 h2 =>
    obtain ⟨o, ho⟩ := Option.ne_none_iff_exists'.1 h.2.1
    rw [evaluate_configured x now m r offer asm doc options o h ho,
      checkNonceLifetime_err.2 ⟨c, hc, h1, h2, rfl⟩]
    rfl
  | noProof h ht hp =>
    obtain ⟨o, ho⟩ := Option.ne_none_iff_exists'.1 h.2.1
    rw [evaluate_configured x now m r offer asm doc options o h ho, checkNonceLifetime_ok.2 ht, hp]
    rfl
  | malformed p e h ht hp hj =>
    obtain ⟨o, ho⟩ := Option.ne_none_iff_exists'.1 h.2.1
    rw [evaluate_configured x now m r offer asm doc options o h ho, checkNonceLifetime_ok.2 ht, hp]
    simp only [Res.bind_ok, hj]
    rfl
  | typ jwt h ht hc hty =>
    obtain ⟨o, ho⟩ := Option.ne_none_iff_exists'.1 h.2.1
    rw [evaluate_carries x now m r offer asm doc options o jwt h ho ht hc, afterParse_typ _ _ _ _ _ _ _ hty]
  | nonce jwt h ht hc hty hn =>
    obtain ⟨o, ho⟩ := Option.ne_none_iff_exists'.1 h.2.1
    rw [evaluate_carries x now m r offer asm doc options o jwt h ho ht hc,
      afterParse_nonce _ _ _ _ _ _ _ hty hn]
  | client o jwt h ho ht hc hty hn hcl =>
    rw [evaluate_carries x now m r offer asm doc options o jwt h ho ht hc,
      afterParse_client _ _ _ _ _ _ _ hty hn hcl]
  | aud o jwt h ho ht hc hty hn hcl ha =>
    rw [evaluate_carries x now m r offer asm doc options o jwt h ho ht hc,
      afterParse_aud _ _ _ _ _ _ _ hty hn hcl]
    unfold ProofJwt.checkAud
    rw [if_neg ha]; rfl
  | key o jwt e h hk =>
    rw [evaluate_addressed x now m r offer asm doc options o jwt h, keyRejected_err hk]; rfl
  | signature o jwt h hk hs =>
    obtain ⟨⟨k, a⟩, hk⟩ := keyFound_ok hk
    rw [evaluate_addressed x now m r offer asm doc options o jwt h, hk, extractSignature_err x jwt hs]
    rfl
  | inlineKey o jwt k h hk hs hj =>
    obtain ⟨⟨b, a⟩, hk⟩ := keyFound_ok hk
    obtain ⟨sig, hs⟩ := extractSignature_ok' x jwt hs
    obtain ⟨msg, hm⟩ := signable_ok x jwt
    have hd : jwt.extractDid x = .err (.unsupportedKeyTypeInJwtHeader (str! "jwk") k) := by
      unfold ProofJwt.extractDid; rw [hj]
    rw [evaluate_addressed x now m r offer asm doc options o jwt h, hk, hs, hm, hd]
    rfl

/-- Every evaluation accepts, panics or has a fault of the table. -/
theorem evaluate_cases :
    (∃ resp, evaluateCredentialRequest x now m r offer asm doc options = .ok resp) ∨
    evaluateCredentialRequest x now m r offer asm doc options = .panic ∨
    ∃ e, Rejected x now m r offer asm doc options e := by
  by_cases hm : DistinctIds m.credentialsSupported
  · by_cases ho : offer = none
    · exact .inr (.inr ⟨_, .noOffer hm ho⟩)
    · by_cases ha : asm = none
      · have hcf : Configured m offer asm := ⟨hm, ho, ha⟩
        obtain ⟨o, ho'⟩ := Option.ne_none_iff_exists'.1 ho
        cases hl : checkNonceLifetime options now with
        | panic =>
          exact .inr (.inl ((C46_evaluate_panics_iff ..).2
            ⟨hm, ha, o, ho', .inl (checkNonceLifetime_panic.1 hl)⟩))
        | err e =>
          obtain ⟨c, h1, h2, h3, -⟩ := checkNonceLifetime_err.1 hl
          exact .inr (.inr ⟨_, .expired c hcf h1 h2 h3⟩)
        | ok u =>
          have ht : Timely now options := checkNonceLifetime_ok.1 hl
          cases hp : r.proof with
          | none => exact .inr (.inr ⟨_, .noProof hcf ht hp⟩)
          | some p =>
            cases hj : ProofJwt.fromStr x p.jwt with
            | panic => exact absurd hj (fromStr_ne_panic _ _)
            | err e => exact .inr (.inr ⟨_, .malformed p e hcf ht hp hj⟩)
            | ok jwt =>
              have hc : Carries x r jwt := ⟨p, hp, hj⟩
              by_cases hty : EqFold jwt.header.typ proofTyp
              · by_cases hn : expectedNonce options = some jwt.body.nonce
                · by_cases hcl : ClientOk options o jwt
                  · by_cases hau : jwt.body.audience = m.credentialIssuer
                    · have had : Addressed x now m r offer asm options o jwt :=
                        ⟨hcf, ho', ht, hc, hty, hn, hcl, hau⟩
                      have hbound : Bound x now m r o options jwt := by
                        unfold expectedNonce at hn
                        split at hn
                        · rename_i c hcn
                          exact ⟨hc, hty, ⟨c, hcn, (Option.some.inj hn).symm, ht c hcn⟩, hau, hcl⟩
                        · cases hn
                      rcases keyLookup_cases x jwt.header doc with ⟨e, he⟩ | hk | ⟨kid, url, d, hk⟩
                      · exact .inr (.inr ⟨_, .key o jwt e had he⟩)
                      · by_cases hs : (jwt.toStr x).count '.' < 2
                        · exact .inr (.inr ⟨_, .signature o jwt had hk hs⟩)
                        · rcases hk with ⟨did, key, hkr⟩ | ⟨k, jwk, key, h1, h2, h3⟩
                          · obtain ⟨sig, hsig⟩ := extractSignature_ok' x jwt (by omega)
                            obtain ⟨msg, hmsg⟩ := signable_ok x jwt
                            exact .inl ⟨_, (evaluate_ok_iff ..).2 ⟨hm, ha, o, jwt, did, key, sig, msg,
                              ho', hbound, hkr, hsig, hmsg, rfl⟩⟩
                          · exact .inr (.inr ⟨_, .inlineKey o jwt k had
                              (.inr ⟨k, jwk, key, h1, h2, h3⟩) (by omega) h1⟩)
                      · exact .inr (.inl ((C46_evaluate_panics_iff ..).2
                          ⟨hm, ha, o, ho', .inr ⟨jwt, kid, url, d, hbound, hk⟩⟩))
                    · exact .inr (.inr ⟨_, .aud o jwt hcf ho' ht hc hty hn hcl hau⟩)
                  · exact .inr (.inr ⟨_, .client o jwt hcf ho' ht hc hty hn hcl⟩)
                · exact .inr (.inr ⟨_, .nonce jwt hcf ht hc hty hn⟩)
              · exact .inr (.inr ⟨_, .typ jwt hcf ht hc hty⟩)
      · exact .inr (.inr ⟨_, .server hm ho ha⟩)
  · exact .inr (.inr ⟨_, .ids hm⟩)

/-- C60. A credential request is rejected with an error exactly when the decision table says so. -/
theorem C60_evaluate_errors (e : CredentialIssuerError) :
    evaluateCredentialRequest x now m r offer asm doc options = .err e ↔
      Rejected x now m r offer asm doc options e := by
  constructor
  · intro h
    rcases evaluate_cases x now m r offer asm doc options with ⟨_, h'⟩ | h' | ⟨e', he⟩
    · rw [h] at h'; cases h'
    · rw [h] at h'; cases h'
    · have := rejected_err _ _ _ _ _ _ _ _ _ he
      rw [h] at this
      cases this
      exact he
  · exact rejected_err _ _ _ _ _ _ _ _ _

/-- C60. The table is unambiguous: no request has two errors. -/
theorem C60_unambiguous (e e' : CredentialIssuerError)
    (h : Rejected x now m r offer asm doc options e)
    (h' : Rejected x now m r offer asm doc options e') : e = e' := by
  have h1 := rejected_err _ _ _ _ _ _ _ _ _ h
  rw [rejected_err _ _ _ _ _ _ _ _ _ h'] at h1
  cases h1
  rfl

/-- C60. Errors of the enum that evaluation never reports, among them the ones meant for a request
for another credential and for missing options. -/
theorem C60_never (e : CredentialIssuerError)
    (h : evaluateCredentialRequest x now m r offer asm doc options = .err e) :
    e ≠ .authorizedFlowNotSupported ∧ (∀ id, e ≠ .credentialIdNotInIssuerMetadata id) ∧
    (∀ s, e ≠ .invalidCredentialOfferEncoding s) ∧ (∀ c cs, e ≠ .invalidRequestedCredential c cs) ∧
    (∀ a b, e ≠ .expiredCNonce a b) ∧ e ≠ .credentialAndAcceptanceTokenSupplied ∧
    (∀ s, e ≠ .evaluteCredentialRequestOptionsNotSupplied s) ∧
    (∀ a b, e ≠ .jwtError (.notYetValid a b)) ∧ ∀ a b, e ≠ .jwtError (.notValidAnymore a b) := by
  have hr := (C60_evaluate_errors x now m r offer asm doc options e).1 h
  cases hr with
  | key o jwt e had hk =>
    cases hk with
    | jwkUnusable k jwk e _ _ hu => cases hu <;> simp
    | kidUnusable kid url d vm jwk e _ _ _ _ _ hu => cases hu <;> simp
    | _ => simp
  | _ => simp

/-- C60. Pre-evaluation is rejected exactly when its decision table says so. -/
theorem C60_pre_evaluate_errors (e : CredentialIssuerError) :
    preEvaluateCredentialRequest x r = .err e ↔ PreRejected x r e := by
  have hdid : ∀ (jwt : ProofJwt) (e : JwtError), jwt.extractDid x = .err e ↔
      DidRejected x jwt.header e := by
    intro jwt e
    unfold ProofJwt.extractDid
    cases ha : jwt.header.additionalHeader with
    | none => exact iff_of_false (by simp) (fun h => by cases h <;> simp_all)
    | some a =>
      cases a with
      | jwk k =>
        simp only [Res.err.injEq]
        exact ⟨by rintro rfl; exact .jwk k ha, fun h => by cases h <;> simp_all⟩
      | x5c k =>
        simp only [Res.err.injEq]
        exact ⟨by rintro rfl; exact .x5c k ha, fun h => by cases h <;> simp_all⟩
      | keyId kid =>
        simp only
        cases hd : x.didUrl kid with
        | error msg =>
          simp only [Res.err.injEq]
          exact ⟨by rintro rfl; exact .kidSyntax kid msg ha hd, fun h => by cases h <;> simp_all⟩
        | ok url => exact iff_of_false (by simp) (fun h => by cases h <;> simp_all)
  have hv : ∀ jwt : ProofJwt, jwt.validate = if toLowercase jwt.header.typ = proofTyp then .ok () else
      .err (.any (str! "jwt header `typ` MUST of of value `openid4vci-proof+jwt`")) := by
    intro jwt
    unfold ProofJwt.validate ProofJwtHeader.validate ProofJwtBody.validate
    by_cases h : toLowercase jwt.header.typ = proofTyp
    · rw [if_pos h, if_neg (show ¬ toLowercase jwt.header.typ ≠ ProofJwtHeader.openid4vciProofType
        from not_not.2 h)]; rfl
    · rw [if_neg h, if_pos (show toLowercase jwt.header.typ ≠ ProofJwtHeader.openid4vciProofType
        from h)]; rfl
  unfold preEvaluateCredentialRequest CredentialRequest.validate
  cases hp : r.proof with
  | none => exact iff_of_false (by simp) (fun h => by cases h <;> simp_all)
  | some p =>
    simp only
    unfold CredentialRequestProof.validate
    by_cases hpt : toUppercase p.proofType = str! "JWT"
    · have hpt' := (uppercase_eq_iff _).1 hpt
      rw [if_neg (show ¬ toUppercase p.proofType ≠ jwtProofType from not_not.2 hpt)]
      cases hj : ProofJwt.fromStr x p.jwt with
      | panic => exact absurd hj (fromStr_ne_panic _ _)
      | err e' =>
        simp only [Res.bind_err, Res.mapErr, Res.err.injEq]
        refine ⟨by rintro rfl; exact .malformed p e' hp hpt' hj, fun h => ?_⟩
        cases h <;> simp_all
      | ok jwt =>
        simp only [Res.bind_ok, hv]
        by_cases hty : toLowercase jwt.header.typ = proofTyp
        · have hty' := (lowercase_eq_iff _).1 hty
          simp only [if_pos hty, Res.bind_ok, Res.mapErr]
          cases hd : jwt.extractDid x with
          | panic => exact absurd hd (extractDid_ne_panic _ _)
          | ok d =>
            refine iff_of_false (by simp) (fun h => ?_)
            have hd' := fun e => (hdid jwt e).2
            cases h <;> simp_all
          | err e' =>
            simp only [Res.bind_err, Res.err.injEq]
            refine ⟨by rintro rfl; exact .did p jwt e' hp hpt' hj hty' ((hdid jwt e').1 hd), fun h => ?_⟩
            cases h with
            | did p1 jwt1 e1 h1 h2 h3 h4 h5 =>
              rw [hp] at h1
              cases h1
              rw [hj] at h3
              cases h3
              rw [(hdid jwt e1).2 h5] at hd
              cases hd
              rfl
            | _ => simp_all
        · have hty' := fun h => hty ((lowercase_eq_iff _).2 h)
          rw [if_neg hty]
          simp only [Res.bind_err, Res.mapErr, Res.err.injEq]
          refine ⟨by rintro rfl; exact .typ p jwt hp hpt' hj hty', fun h => ?_⟩
          cases h <;> simp_all
    · have hpt' := fun h => hpt ((uppercase_eq_iff _).2 h)
      rw [if_pos (show toUppercase p.proofType ≠ jwtProofType from hpt)]
      simp only [Res.bind_err, Res.mapErr, Res.err.injEq]
      refine ⟨by rintro rfl; exact .proofType p hp hpt', fun h => ?_⟩
      cases h <;> simp_all

/-- C60. Pre-evaluation accepts everything else; it never panics. -/
theorem C60_pre_evaluate_total :
    (∃ e, PreRejected x r e) ∨ ∃ resp, preEvaluateCredentialRequest x r = .ok resp := by
  cases h : preEvaluateCredentialRequest x r with
  | ok resp => exact .inr ⟨_, rfl⟩
  | err e => exact .inl ⟨e, (C60_pre_evaluate_errors x r e).1 h⟩
  | panic => exact absurd h (C46_others_partial.2.1 x r)

end

/-! ### Examples: one request with one fault each -/

/-- Another nonce is expected. -/
example : evaluateCredentialRequest Ex.ext 1000 Ex.metadata Ex.request (some Ex.pinOffer) none
    (some Ex.didDoc) (some ⟨some ⟨100, str! "other", 0⟩, none⟩) =
      .err (.jwtError (.nonceMismatch (some (str! "other")) (str! "nonce"))) :=
  (C60_evaluate_errors ..).2 (.nonce _ ⟨Ex.distinct_metadata, by simp, rfl⟩
    (by rintro c ⟨⟩; exact ⟨by decide +kernel, by decide +kernel⟩)
    ⟨_, rfl, Ex.fromStr_request⟩ Ex.bound.typ (by decide +kernel))

/-- A client is expected, and the JWT names none. -/
example : evaluateCredentialRequest Ex.ext 1000 Ex.metadata Ex.request (some Ex.pinOffer) none
    (some Ex.didDoc) (some ⟨some ⟨100, str! "nonce", 0⟩, some (str! "wallet")⟩) =
      .err (.jwtError (.issuerMismatch (some (str! "wallet")) none)) :=
  (C60_evaluate_errors ..).2 (.client Ex.pinOffer _ ⟨Ex.distinct_metadata, by simp, rfl⟩ rfl
    (by rintro c ⟨⟩; exact ⟨by decide +kernel, by decide +kernel⟩)
    ⟨_, rfl, Ex.fromStr_request⟩ Ex.bound.typ (by decide +kernel)
    (fun h => absurd (h (.inl (by decide +kernel))) (by decide +kernel)))

/-- No DID document. -/
example : evaluateCredentialRequest Ex.ext 1000 Ex.metadata Ex.request (some Ex.pinOffer) none
    none Ex.options = .err (.jwtError .noDidDocumentProvidedForKidAsDid) :=
  (C60_evaluate_errors ..).2 (.key Ex.pinOffer _ _
    ⟨⟨Ex.distinct_metadata, by simp, rfl⟩, rfl,
      by rintro c ⟨⟩; exact ⟨by decide +kernel, by decide +kernel⟩,
      ⟨_, rfl, Ex.fromStr_request⟩, Ex.bound.typ, by decide +kernel, Ex.bound.iss, rfl⟩
    (.noDocument _ _ rfl rfl rfl))

/-- No proof. -/
example : evaluateCredentialRequest Ex.ext 1000 Ex.metadata { Ex.request with proof := none }
    (some Ex.pinOffer) none none none = .err .noProofInCredentialRequest :=
  (C60_evaluate_errors ..).2 (.noProof ⟨Ex.distinct_metadata, by simp, rfl⟩ (by rintro c ⟨⟩) rfl)

/-- A proof of another type. -/
example : preEvaluateCredentialRequest Ex.ext ⟨Ex.mdoc, some ⟨str! "cwt", []⟩⟩ =
    .err (.validationError (.any (str! "`proof_type` MUST of of value `JWT`"))) :=
  (C60_pre_evaluate_errors ..).2 (.proofType ⟨str! "cwt", []⟩ rfl
    (fun h => absurd ((uppercase_eq_iff _).2 h) (by decide +kernel)))

/-- C60: without a proof no other reason applies. -/
example (e : CredentialIssuerError) (h : Rejected Ex.ext 1000 Ex.metadata { Ex.request with proof := none }
    (some Ex.pinOffer) none none none e) : e = .noProofInCredentialRequest :=
  C60_unambiguous _ _ _ _ _ _ _ _ _ _ h (.noProof ⟨Ex.distinct_metadata, by simp, rfl⟩ (by rintro c ⟨⟩) rfl)

end Oid4vci
