import Verif.Spec.Depends
import Verif.Props.Reject

/-! C73: what the evaluations depend on. -/

namespace Oid4vci

open Spec CredentialIssuer

theorem validate_same (m m' : CredentialIssuerMetadata)
    (h : DistinctIds m.credentialsSupported ↔ DistinctIds m'.credentialsSupported) :
    m.validate = m'.validate := by
  have key : ∀ m : CredentialIssuerMetadata, ¬ DistinctIds m.credentialsSupported → m.validate = .err (.any
      (str! "Ids in supported credentials of the issuer metadata are not unique")) := by
    intro m h
    rw [← metadata_validate_iff] at h
    unfold CredentialIssuerMetadata.validate at *
    split at h
    · rename_i hu; rw [if_pos hu]
    · rename_i hu
      rw [if_neg hu] at *
      exact absurd (by simp [validateAll_ok _ CredentialSupported.validate_ok]) h
  by_cases hd : DistinctIds m.credentialsSupported
  · rw [(metadata_validate_iff m).2 hd, (metadata_validate_iff m').2 (h.1 hd)]
  · rw [key m hd, key m' (fun h' => hd (h.2 h'))]

theorem shouldValidateIss_same (options : Option EvaluateCredentialRequestOptions) (o o' : CredentialOffer)
    (h : SameFlows o o') : shouldValidateIss options o = shouldValidateIss options o' := by
  cases options with
  | none => rfl
  | some op =>
    rw [Bool.eq_iff_iff, shouldValidateIss_iff, shouldValidateIss_iff]
    simp only [PurelyPreAuthorized, ne_eq, h.1, h.2]

theorem withCredential_bind {α : Type} (f : CredentialFormatProfile) (r : CredentialIssuerResult α)
    (k : α → CredentialIssuerResult CredentialIssuerEvaluateRequestResponse) :
    withCredential f (r >>= k) = r >>= fun a => withCredential f (k a) := by
  cases r <;> rfl

/-- C73. A credential request is evaluated the same way for any metadata with the same issuer, any offer
with the same flows, any proof type, and any authorization server metadata; the requested credential is
passed through. -/
theorem C73_evaluate (x : Ext) (now : Time) (m m' : CredentialIssuerMetadata) (r r' : CredentialRequest)
    (offer offer' : Option CredentialOffer) (asm asm' : Option AuthorizationServerMetadata)
    (doc : Option x.Doc) (options : Option EvaluateCredentialRequestOptions)
    (hm : SameIssuer m m') (hr : SameProof r r') (ho : Both SameFlows offer offer')
    (ha : asm = none ↔ asm' = none) :
    evaluateCredentialRequest x now m' r' offer' asm' doc options
      = withCredential r'.format (evaluateCredentialRequest x now m r offer asm doc options) := by
  obtain ⟨f, p⟩ := r
  obtain ⟨f', p'⟩ := r'
  unfold evaluateCredentialRequest
  rw [validate_same m m' hm.2, hm.1]
  cases m'.validate with
  | err e => rfl
  | panic => rfl
  | ok _ =>
    cases ho with
    | none => rfl
    | some o o' ho =>
      have : asm = asm' := by
        cases asm <;> cases asm' <;> simp_all
      subst this
      cases asm with
      | some a => rfl
      | none =>
        simp only [offer_validate_ok, Res.mapErr, Res.bind_ok, Res.okOr]
        rw [← shouldValidateIss_same options o o' ho]
        cases checkNonceLifetime options now with
        | err e => rfl
        | panic => rfl
        | ok _ =>
          cases hr with
          | none => rfl
          | some q q' hq =>
            simp only [Res.bind_ok, hq]
            cases shouldValidateIss options o <;> simp only [if_true, if_false, Bool.false_eq_true, withCredential_bind] <;> rfl

/-- Another credential, another proof type, other supported credentials and another offer. -/
example : ∃ p, Ex.request.proof = some p ∧
    evaluateCredentialRequest Ex.ext 1000 { Ex.metadata with credentialsSupported := [] }
      ⟨Ex.mdoc, some ⟨str! "cwt", p.jwt⟩⟩ (some ⟨[], [], ⟨none, some ⟨[], none⟩⟩⟩) none
      (some Ex.didDoc) Ex.options
    = withCredential Ex.mdoc (evaluateCredentialRequest Ex.ext 1000 Ex.metadata Ex.request (some Ex.pinOffer) none
      (some Ex.didDoc) Ex.options) := by
  refine ⟨_, rfl, C73_evaluate _ _ _ _ _ ⟨Ex.mdoc, some ⟨str! "cwt", _⟩⟩ _ _ _ _ _ _ ?_ ?_ ?_ Iff.rfl⟩
  · exact ⟨rfl, iff_of_true Ex.distinct_metadata (by intro i j a b id h; simp at h)⟩
  · exact Both.some _ _ rfl
  · exact .some _ _ (by unfold SameFlows; decide)

/-- C73. The result is the same at any two instants in the lifetime of the nonce. -/
theorem C73_time (x : Ext) (now now' : Time) (m : CredentialIssuerMetadata) (r : CredentialRequest)
    (offer : Option CredentialOffer) (asm : Option AuthorizationServerMetadata) (doc : Option x.Doc)
    (options : Option EvaluateCredentialRequestOptions)
    (h : ∀ c ∈ nonceOptions options, now ≤ nonceExpiry c ∧ now' ≤ nonceExpiry c) :
    evaluateCredentialRequest x now m r offer asm doc options
      = evaluateCredentialRequest x now' m r offer asm doc options := by
  have : checkNonceLifetime options now = checkNonceLifetime options now' := by
    unfold checkNonceLifetime
    have hb : options.bind (·.cNonce) = nonceOptions options := by cases options <;> rfl
    rw [hb]
    cases hc : nonceOptions options with
    | none => rfl
    | some c =>
      obtain ⟨h1, h2⟩ := h c hc
      simp only [Time.addSeconds]
      have he : c.cNonceCreatedAt + ↑c.cNonceExpiresIn.toNat * Time.nsPerSec = nonceExpiry c := rfl
      rw [he]
      split
      · simp only [Res.bind_ok, not_lt.2 h1, not_lt.2 h2, if_false]
      · rfl
  unfold evaluateCredentialRequest
  rw [this]

/-- Two instants within the lifetime of 100 seconds. -/
example : evaluateCredentialRequest Ex.ext 1000 Ex.metadata Ex.request (some Ex.pinOffer) none (some Ex.didDoc) Ex.options
    = evaluateCredentialRequest Ex.ext 100000000000 Ex.metadata Ex.request (some Ex.pinOffer) none (some Ex.didDoc)
      Ex.options :=
  C73_time Ex.ext _ _ _ _ _ _ _ _ (by rintro c ⟨⟩; decide)

/-- C73. DID documents are used only to look up DID URLs. -/
theorem C73_document (x : Ext) (now : Time) (m : CredentialIssuerMetadata) (r : CredentialRequest)
    (offer : Option CredentialOffer) (asm : Option AuthorizationServerMetadata) (d d' : x.Doc)
    (options : Option EvaluateCredentialRequestOptions) (h : ∀ url, x.select d url = x.select d' url) :
    evaluateCredentialRequest x now m r offer asm (some d) options
      = evaluateCredentialRequest x now m r offer asm (some d') options := by
  have hk : ∀ j : ProofJwt, j.extractKeyAndAlg x (some d) = j.extractKeyAndAlg x (some d') := by
    intro j
    simp only [ProofJwt.extractKeyAndAlg, ProofJwtHeader.extractKeyAndAlg, h]
  unfold evaluateCredentialRequest
  simp only [hk]

/-- A document with a further key under a name already used. -/
example : evaluateCredentialRequest Ex.ext 1000 Ex.metadata Ex.request (some Ex.pinOffer) none
      (some [(str! "k", ⟨none, .okp [1, 2, 3]⟩)]) Ex.options
    = evaluateCredentialRequest Ex.ext 1000 Ex.metadata Ex.request (some Ex.pinOffer) none
      (some [(str! "k", ⟨none, .okp [1, 2, 3]⟩), (str! "k", ⟨none, .other⟩)]) Ex.options :=
  C73_document Ex.ext _ _ _ _ _ _ _ _ (by
    intro url
    simp only [Ex.ext, List.find?_cons, List.find?_nil]
    by_cases h : some (str! "k") = url.fragment <;> simp [h])

/-- C73. Pre-evaluation depends on the proof only. -/
theorem C73_pre_evaluate (x : Ext) (r : CredentialRequest) (f : CredentialFormatProfile) :
    preEvaluateCredentialRequest x { r with format := f } = preEvaluateCredentialRequest x r := by
  obtain ⟨f', p⟩ := r
  rfl

/-- C73. A token request is evaluated the same way for any offer with the same pre-authorized grant, and
any settings with the same PIN: issuer, credentials and issuer state play no part. -/
theorem C73_token (r : AccessTokenRequest) (offer offer' : Option CredentialOffer)
    (options options' : Option EvaluateAccessTokenRequestOptions) (ho : Both SameGrant offer offer')
    (hp : expectedPin options = expectedPin options') :
    AccessToken.evaluateAccessTokenRequest r offer options
      = AccessToken.evaluateAccessTokenRequest r offer' options' := by
  obtain ⟨g⟩ := r
  rcases validate_cases g with hv | ⟨e, hv⟩
  · cases g with
    | authorizedCodeFlow => cases ho <;> rfl
    | preAuthorizedCodeFlow code pin =>
      rw [evaluate_pre_eq _ _ _ _ hv, evaluate_pre_eq _ _ _ _ hv, hp]
      cases ho with
      | none => rfl
      | some o o' h =>
        obtain ⟨i, cs, ⟨a, p⟩⟩ := o
        obtain ⟨i', cs', ⟨a', p'⟩⟩ := o'
        obtain ⟨h1, h2⟩ := h
        simp only at h1 h2
        subst h2
        cases a <;> cases a' <;> cases p <;> first | rfl | simp at h1
  · rw [evaluate_invalid _ _ _ _ hv, evaluate_invalid _ _ _ _ hv]

/-- Different metadata, offers and requests in the same classes. -/
example : SameIssuer Ex.metadata { Ex.metadata with credentialsSupported := [] } :=
  ⟨rfl, iff_of_true Ex.distinct_metadata (by intro i j a b id h; simp at h)⟩
example : SameFlows Ex.pinOffer ⟨[], [], ⟨none, some ⟨[], none⟩⟩⟩ := by
  unfold SameFlows; decide
example : SameGrant Ex.bothOffer ⟨[], [], ⟨some ⟨none⟩, some ⟨str! "code", some true⟩⟩⟩ := by
  unfold SameGrant; decide
example : ¬ SameFlows Ex.pinOffer Ex.bothOffer := by unfold SameFlows; decide

end Oid4vci
