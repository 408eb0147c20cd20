import Verif.Props.Jwt
import Verif.Spec.Evaluate
import Verif.Lemmas.Offer

/-! What `evaluate_credential_request` accepts, in terms of the specification. -/

namespace Oid4vci

open Spec CredentialIssuer

theorem jwkToPublicKeyBytes_ok {k : Jwk} {b : Bytes} :
    ProofJwtHeader.jwkToPublicKeyBytes k = .ok b ↔ KeyBytes k b := by
  obtain ⟨alg, params⟩ := k
  unfold ProofJwtHeader.jwkToPublicKeyBytes KeyBytes
  cases params with
  | okp pk => simp
  | other => simp
  | ec px =>
    cases alg with
    | none => simp [SsiAlg.default, SsiAlg.edDSA]
    | some a =>
      simp only [Option.getD_some, reduceCtorEq, JwkParams.ec.injEq, false_or, Option.some.injEq]
      split
      · rename_i h; rw [Res.okOr_eq_ok]; simp [h, SsiAlg.edDSA]
      · rename_i h
        simp only [reduceCtorEq, false_iff, not_and]
        exact fun _ h' => h h'

theorem keyResolved_iff {x : Ext} {j : ProofJwt} {doc : Option x.Doc} {b : Bytes}
    {alg : ProofJwtAlgorithm} {did : Option Str} :
    (j.extractKeyAndAlg x doc = .ok (b, alg) ∧ j.extractDid x = .ok did) ↔
      alg = j.header.alg ∧ ∃ d, did = some d ∧ KeyResolved x j.header doc d b := by
  unfold ProofJwt.extractKeyAndAlg ProofJwtHeader.extractKeyAndAlg ProofJwt.extractDid KeyResolved
  cases hk : j.header.additionalHeader with
  | none => simp
  | some a =>
    cases a with
    | jwk k => simp
    | x5c k => simp
    | keyId kid =>
      simp only [Option.some.injEq, ProofJwtAdditionalHeader.keyId.injEq]
      cases hd : x.didUrl kid with
      | error m =>
        refine iff_of_false (by simp) ?_
        rintro ⟨-, d, -, kid', url, _, _, _, rfl, h, -⟩
        rw [hd] at h; cases h
      | ok url =>
        simp only [Res.ok.injEq]
        cases doc with
        | none => simp
        | some d =>
          simp only
          cases hs : x.select d url with
          | error m =>
            refine iff_of_false (by simp) ?_
            rintro ⟨-, _, -, kid', url', d', vm, jwk, rfl, h, -, h', h'', -⟩
            rw [hd] at h; cases h; cases h'; rw [hs] at h''; cases h''
          | other =>
            refine iff_of_false (by simp) ?_
            rintro ⟨-, _, -, kid', url', d', vm, jwk, rfl, h, -, h', h'', -⟩
            rw [hd] at h; cases h; cases h'; rw [hs] at h''; cases h''
          | verificationMethod vm =>
            simp only
            cases hj : x.getJwk vm with
            | error m =>
              refine iff_of_false (by simp) ?_
              rintro ⟨-, _, -, kid', url', d', vm, jwk, rfl, h, -, h', h'', h3, -⟩
              rw [hd] at h; cases h; cases h'; rw [hs] at h''; cases h''; rw [hj] at h3; cases h3
            | ok jwk =>
              simp only [Res.bind_eq_ok, Res.ok.injEq, Prod.mk.injEq]
              constructor
              · rintro ⟨⟨pk, hpk, rfl, rfl⟩, rfl⟩
                exact ⟨rfl, _, rfl, kid, url, d, vm, jwk, rfl, hd, rfl, rfl, hs, hj,
                  jwkToPublicKeyBytes_ok.1 hpk⟩
              · rintro ⟨rfl, _, rfl, kid', url', d', vm', jwk', rfl, h, rfl, h', h'', h3, h4⟩
                rw [hd] at h; cases h; cases h'; rw [hs] at h''; cases h''; rw [hj] at h3; cases h3
                exact ⟨⟨b, jwkToPublicKeyBytes_ok.2 h4, rfl, rfl⟩, rfl⟩

theorem shouldValidateIss_iff (o : EvaluateCredentialRequestOptions) (offer : CredentialOffer) :
    shouldValidateIss (some o) offer = true ↔
      o.clientId ≠ none ∨ ¬ PurelyPreAuthorized offer := by
  unfold shouldValidateIss PurelyPreAuthorized
  cases h : o.clientId <;> cases offer.grants.preAuthorizedCodeFlow <;>
    cases offer.grants.authorizedCodeFlow <;> simp [h]

theorem checkNonceLifetime_ok {options : Option EvaluateCredentialRequestOptions} {now : Time} :
    checkNonceLifetime options now = .ok () ↔
      ∀ c ∈ nonceOptions options, now ≤ nonceExpiry c ∧ nonceExpiry c ≤ Time.max := by
  have hb : options.bind (·.cNonce) = nonceOptions options := by cases options <;> rfl
  unfold checkNonceLifetime
  rw [hb]
  cases nonceOptions options with
  | none => simp
  | some c =>
    simp only [Option.mem_def, Option.some.injEq, forall_eq']
    unfold Time.addSeconds
    have : c.cNonceCreatedAt + ↑c.cNonceExpiresIn.toNat * Time.nsPerSec = nonceExpiry c := rfl
    rw [this]
    by_cases h1 : nonceExpiry c ≤ Time.max
    · rw [if_pos h1]
      simp only [Res.bind_ok, h1, and_true]
      by_cases h2 : nonceExpiry c < now
      · rw [if_pos h2]; exact iff_of_false (by simp) (not_le.2 h2)
      · rw [if_neg h2]; exact iff_of_true rfl (not_lt.1 h2)
    · rw [if_neg h1]
      exact iff_of_false (by simp) fun h => h1 h.2

/-- A conditional bind. -/
theorem ite_bind {ε α β : Type} (c : Prop) [Decidable c] (a b : Res ε α) (f : α → Res ε β) :
    ((if c then a else b) >>= f) = if c then a >>= f else b >>= f := by
  split <;> rfl

theorem signable_ok (x : Ext) (j : ProofJwt) : ∃ m, j.toSignableMessage x = .ok m := by
  obtain ⟨m, hm, -⟩ := signable_cases x j
  exact ⟨_, hm⟩

theorem offer_validate_ok (o : CredentialOffer) : o.validate = .ok () := rfl

/-- Acceptance of a credential request. -/
theorem evaluate_ok_iff (x : Ext) (now : Time) (m : CredentialIssuerMetadata)
    (r : CredentialRequest) (offer : Option CredentialOffer)
    (asm : Option AuthorizationServerMetadata) (doc : Option x.Doc)
    (options : Option EvaluateCredentialRequestOptions)
    (resp : CredentialIssuerEvaluateRequestResponse) :
    evaluateCredentialRequest x now m r offer asm doc options = .ok resp ↔
      DistinctIds m.credentialsSupported ∧ asm = none ∧ ∃ o jwt did key sig msg, offer = some o ∧
        Bound x now m r o options jwt ∧ KeyResolved x jwt.header doc did key ∧
        jwt.extractSignature x = .ok sig ∧ jwt.toSignableMessage x = .ok msg ∧
        resp = ⟨some ⟨jwt.header.alg, key, msg, sig⟩, some did, r.format⟩ := by
  unfold evaluateCredentialRequest
  simp only [Res.bind_eq_ok, Res.mapErr_eq_ok, Res.okOr_eq_ok]
  constructor
  · rintro ⟨_, hm, o, ho, _, -, h⟩
    cases asm with
    | some a =>
      simp only [Res.bind_eq_ok] at h
      obtain ⟨_, -, h⟩ := h
      cases h
    | none =>
      simp only [Res.bind_eq_ok] at h
      obtain ⟨_, hl, h⟩ := h
      cases hp : r.proof with
      | none => rw [hp] at h; simp at h
      | some p =>
        rw [hp] at h
        simp only [Res.bind_eq_ok, Res.mapErr_eq_ok] at h
        obtain ⟨jwt, hj, _, hv, _, hn, h⟩ := h
        have hi : (if shouldValidateIss options o then
            (jwt.checkIss (options.bind (·.clientId))).mapErr CredentialIssuerError.jwtError
            else .ok ()) = .ok () := by
          split at h
          · rename_i hsv
            rw [if_pos hsv]
            simp only [Res.bind_eq_ok] at h
            obtain ⟨_, h, -⟩ := h
            exact h
          · rename_i hsv
            rw [if_neg hsv]
        rw [← ite_bind, hi] at h
        simp only [Res.bind_ok, Res.bind_eq_ok, Res.mapErr_eq_ok] at h
        obtain ⟨_, ha, ⟨key, alg⟩, hk, sig, hs, msg, hmsg, did, hd, he⟩ := h
        obtain ⟨rfl, d, rfl, hkr⟩ := keyResolved_iff.1 ⟨hk, hd⟩
        refine ⟨(metadata_validate_iff m).1 hm, rfl, o, jwt, d, key, sig, msg, ho, ?_, hkr, hs,
          hmsg, (Res.ok.inj he).symm⟩
        have hb : options.bind (·.cNonce) = nonceOptions options := by cases options <;> rfl
        rw [hb] at hn
        unfold ProofJwt.checkNonce at hn
        split at hn
        · rename_i hn'
          cases hc : nonceOptions options with
          | none => rw [hc] at hn'; cases hn'
          | some c =>
            rw [hc] at hn'
            have hl := checkNonceLifetime_ok.1 hl c (by rw [hc]; rfl)
            refine ⟨⟨p, hp, hj⟩, (C19_typ jwt).1 hv, ⟨c, hc, ?_, hl⟩, ?_, ?_⟩
            · exact Option.some.inj hn'
            · unfold ProofJwt.checkAud at ha
              split at ha
              · assumption
              · cases ha
            · intro hi'
              cases options with
              | none => cases hc
              | some op =>
                rw [if_pos ((shouldValidateIss_iff op o).2 hi'), Res.mapErr_eq_ok] at hi
                unfold ProofJwt.checkIss at hi
                split at hi
                · assumption
                · cases hi
        · cases hn
  · rintro ⟨hm, rfl, o, jwt, d, key, sig, msg, rfl, ⟨⟨p, hp, hj⟩, hv, ⟨c, hc, hn, hl⟩, ha, hi⟩, hkr,
      hs, hmsg, rfl⟩
    have hb : options.bind (·.cNonce) = nonceOptions options := by cases options <;> rfl
    obtain ⟨hk, hd⟩ := keyResolved_iff.2 ⟨rfl, d, rfl, hkr⟩
    refine ⟨(), (metadata_validate_iff m).2 hm, o, rfl, (), offer_validate_ok o, ?_⟩
    simp only [Res.bind_eq_ok]
    refine ⟨(), checkNonceLifetime_ok.2 fun c' hc' => ?_, ?_⟩
    · rw [hc] at hc'; cases hc'; exact hl
    · rw [hp]
      simp only [Res.bind_eq_ok, Res.mapErr_eq_ok]
      refine ⟨jwt, hj, (), (C19_typ jwt).2 hv, (), ?_, ?_⟩
      · rw [hb, hc]
        unfold ProofJwt.checkNonce
        rw [if_pos (by simp [hn])]
      · have hi' : (if shouldValidateIss options o then
            (jwt.checkIss (options.bind (·.clientId))).mapErr CredentialIssuerError.jwtError
            else .ok ()) = .ok () := by
          cases options with
          | none => cases hc
          | some op =>
            by_cases hsv : shouldValidateIss (some op) o = true
            · rw [if_pos hsv, Res.mapErr_eq_ok]
              unfold ProofJwt.checkIss
              exact if_pos (hi ((shouldValidateIss_iff op o).1 hsv))
            · rw [if_neg hsv]
        rw [← ite_bind, hi']
        simp only [Res.bind_ok, Res.bind_eq_ok, Res.mapErr_eq_ok]
        refine ⟨(), ?_, (key, _), hk, sig, hs, msg, hmsg, some d, hd, rfl⟩
        unfold ProofJwt.checkAud
        rw [if_pos ha]

end Oid4vci
