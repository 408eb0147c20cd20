import Verif.Props.Careful

/-!
The checks that are left to the caller are all needed (C120).
-/

namespace Oid4vci

open Spec CredentialIssuer

/-- C120. What is left to the caller are four checks. -/
theorem C120_checks (verifies : Scheme) (now : Time) (m : CredentialIssuerMetadata) (o : CredentialOffer) (token : Str)
    (jwt : ProofJwt) (resp : CredentialIssuerEvaluateRequestResponse) :
    LeftToCaller verifies now m o token jwt resp ↔ ∀ k : Check, k.Done verifies now m o token jwt resp := by
  constructor
  · rintro ⟨⟨pop, h1, h2, h3⟩, h4, h5⟩ k
    cases k
    · exact ⟨pop, h1, h2⟩
    · exact ⟨pop, h1, h3⟩
    · exact h4
    · exact h5
  · intro h
    obtain ⟨pop, h1, h2⟩ := h .algorithm
    obtain ⟨pop', h1', h3⟩ := h .signature
    rw [h1] at h1'
    cases h1'
    exact ⟨⟨pop, h1, h2, h3⟩, h .expiry, h .offer⟩

namespace Ex

/-- A proof with a key of the example's document passes everything that the library checks. -/
theorem passes {alg : ProofJwtAlgorithm} {b : ProofJwtBody} {o : CredentialOffer} (ht : TimesOk ext b)
    (ha : b.audience = str! "https://issuer") (hn : b.nonce = str! "nonce") (hw : InWindow b 1000)
    (ho : PurelyPreAuthorized o) :
    ∃ pre resp jwt, preEvaluateCredentialRequest ext
        ⟨mdoc, some ⟨str! "jwt", compact ext ⟨proofTyp, alg, header.additionalHeader⟩ b (some (str! "c2ln"))⟩⟩ = .ok pre ∧
      evaluateCredentialRequest ext 1000 metadata
        ⟨mdoc, some ⟨str! "jwt", compact ext ⟨proofTyp, alg, header.additionalHeader⟩ b (some (str! "c2ln"))⟩⟩ (some o) none
        (some didDoc) (some ⟨some ⟨100, str! "nonce", 0⟩, none⟩) = .ok resp ∧
      ProofJwt.fromStr ext (compact ext ⟨proofTyp, alg, header.additionalHeader⟩ b (some (str! "c2ln"))) = .ok jwt ∧
      jwt.verify 1000 = .ok () ∧ jwt = ⟨⟨proofTyp, alg, header.additionalHeader⟩, b, some (str! "c2ln")⟩ ∧
      (∃ pop, resp.proofOfPossession = some pop ∧ pop.algorithm = alg ∧ pop.publicKey = [1, 2, 3]) ∧
      resp.credential = mdoc := by
  have hj := fromStr_compact ext ⟨proofTyp, alg, header.additionalHeader⟩ b (some (str! "c2ln")) ht (by simp [NoDot])
  have ht : EqFold proofTyp proofTyp := (lowercase_eq_iff _).1 (by decide +kernel)
  obtain ⟨sg, hsg⟩ := (extractSignature_ok ext ⟨⟨proofTyp, alg, header.additionalHeader⟩, b, some (str! "c2ln")⟩).2 (.inl (by simp))
  obtain ⟨msg, hmsg⟩ := signable_ok ext ⟨⟨proofTyp, alg, header.additionalHeader⟩, b, some (str! "c2ln")⟩
  have hk : KeyResolved ext ⟨proofTyp, alg, header.additionalHeader⟩ (some didDoc) (str! "did:example:h") [1, 2, 3] :=
    ⟨_, _, _, _, _, rfl, rfl, by decide +kernel, rfl, rfl, rfl, .inl rfl⟩
  have h2 := (evaluate_ok_iff ext 1000 metadata
      ⟨mdoc, some ⟨str! "jwt", compact ext ⟨proofTyp, alg, header.additionalHeader⟩ b (some (str! "c2ln"))⟩⟩ (some o) none
      (some didDoc) (some ⟨some ⟨100, str! "nonce", 0⟩, none⟩) _).2
    ⟨distinct, rfl, o, _, _, _, sg, msg, rfl, ⟨⟨_, rfl, hj⟩, ht, ⟨_, rfl, hn, by decide +kernel, by decide +kernel⟩, ha,
      fun h => by rcases h with h | h; exacts [absurd rfl h, absurd ho h]⟩, hk, hsg, hmsg, rfl⟩
  have hv : CredentialRequest.validate ext
      ⟨mdoc, some ⟨str! "jwt", compact ext ⟨proofTyp, alg, header.additionalHeader⟩ b (some (str! "c2ln"))⟩⟩ = .ok () :=
    (C19_request ext _).2 fun p hp => by
      cases hp; exact ⟨(uppercase_eq_iff (str! "jwt")).1 (by decide +kernel), _, hj, ht⟩
  exact ⟨_, _, _, C26_pre_succeeds _ _ _ _ _ _ _ _ _ hv h2, h2, hj, (C20_window_partial ..).2 hw, rfl,
    ⟨_, rfl, rfl, rfl⟩, rfl⟩

/-- A signature of the example's key, whatever the algorithm. -/
theorem signed_with (verifies : Scheme) (alg : ProofJwtAlgorithm) (h : ProofJwtHeader) (b : ProofJwtBody)
    (hv : ∀ m, verifies alg [1, 2, 3] m (utf8Encode (str! "sig"))) :
    Signed verifies alg [1, 2, 3] (compact ext h b (some (str! "c2ln"))) := by
  refine ⟨base64urlEncode (utf8Encode h.ser.print), base64urlEncode (utf8Encode (b.ser ext).print),
    str! "c2ln", _, by simp [compact], noDot_encode _, noDot_encode _, by simp [NoDot], ?_, hv _⟩
  have := isBase64url_encode (utf8Encode (str! "sig"))
  rwa [show base64urlEncode (utf8Encode (str! "sig")) = str! "c2ln" by decide +kernel] at this

/-- A scheme that confuses public keys with secrets: `sig` is the signature under every algorithm. -/
def confused : Scheme := fun _ key _ sig => key = [1, 2, 3] ∧ sig = utf8Encode (str! "sig")

/-- A scheme without signatures. -/
def unforged : Scheme := fun _ _ _ _ => False

/-- A body that expires at the instant 1000. -/
def expiring : ProofJwtBody := { plainBody with expiresAt := some 1000 }

/-- An offer of another credential. -/
def otherOffer : CredentialOffer :=
  ⟨str! "https://issuer", [.credentialId (str! "a")], ⟨none, some ⟨str! "code", none⟩⟩⟩

theorem offered : ∃ e ∈ mdocOffer.credentials, StandsFor metadata e mdoc :=
  ⟨.credentialId (str! "b"), by simp [mdocOffer],
    [entry none ldp, entry (some (str! "a")) ldp, entry none ldp], entry (some (str! "b")) mdoc, [], rfl, rfl, rfl,
    by decide +kernel⟩

end Ex

/-- C120. Each of the four checks is needed: for each there is a proof that passes the library's checks and the other
three, and is not a valid key proof for a credential that was offered. -/
theorem C120_needed (k : Check) : ∃ (x : Ext) (verifies : Scheme) (now : Time) (m : CredentialIssuerMetadata)
    (o : CredentialOffer) (d : x.Doc) (c : CNonceOptions) (client : Option Str) (format : CredentialFormatProfile)
    (type token : Str), DistinctIds m.credentialsSupported ∧ now ≤ nonceExpiry c ∧ nonceExpiry c ≤ Time.max ∧
    (∃ pre resp jwt, preEvaluateCredentialRequest x ⟨format, some ⟨type, token⟩⟩ = .ok pre ∧
      evaluateCredentialRequest x now m ⟨format, some ⟨type, token⟩⟩ (some o) none (some d) (some ⟨some c, client⟩)
        = .ok resp ∧
      ProofJwt.fromStr x token = .ok jwt ∧ jwt.verify now = .ok () ∧
      ∀ k', k' ≠ k → k'.Done verifies now m o token jwt resp) ∧
    ¬ (ValidKeyProof x verifies now ⟨m.credentialIssuer, c.expectedCNonce, checkedClient o client, d⟩ token ∧
      ∃ e ∈ o.credentials, StandsFor m e format) := by
  have hpre : ∀ o ∈ [Ex.mdocOffer, Ex.otherOffer], PurelyPreAuthorized o := by
    intro o ho
    simp only [List.mem_cons, List.not_mem_nil, or_false] at ho
    rcases ho with rfl | rfl <;> exact ⟨by simp [Ex.mdocOffer, Ex.otherOffer], rfl⟩
  have hwin : InWindow Ex.plainBody 1000 := by simp [InWindow, Ex.plainBody]
  have hread : ∀ {h b j}, TimesOk Ex.ext b → JwtText Ex.ext j (compact Ex.ext h b (some (str! "c2ln"))) →
      j = ⟨h, b, some (str! "c2ln")⟩ := by
    intro h b j ht hj
    have := (C67_jwt ..).2 hj
    rw [fromStr_compact Ex.ext h b _ ht (by simp [NoDot])] at this
    cases this
    rfl
  have go : ∀ (verifies : Scheme) (alg : ProofJwtAlgorithm) (b : ProofJwtBody) (o : CredentialOffer), TimesOk Ex.ext b →
      b.audience = str! "https://issuer" → b.nonce = str! "nonce" → InWindow b 1000 → PurelyPreAuthorized o →
      (k ≠ .algorithm → Asymmetric alg) →
      (k ≠ .signature → ∀ m, verifies alg [1, 2, 3] m (utf8Encode (str! "sig"))) →
      (k ≠ .expiry → b.expiresAt ≠ some 1000) → (k ≠ .offer → ∃ e ∈ o.credentials, StandsFor Ex.metadata e Ex.mdoc) →
      ∃ pre resp jwt, preEvaluateCredentialRequest Ex.ext
          ⟨Ex.mdoc, some ⟨str! "jwt", compact Ex.ext ⟨proofTyp, alg, Ex.header.additionalHeader⟩ b (some (str! "c2ln"))⟩⟩ = .ok pre ∧
        evaluateCredentialRequest Ex.ext 1000 Ex.metadata
          ⟨Ex.mdoc, some ⟨str! "jwt", compact Ex.ext ⟨proofTyp, alg, Ex.header.additionalHeader⟩ b (some (str! "c2ln"))⟩⟩ (some o) none
          (some Ex.didDoc) (some ⟨some ⟨100, str! "nonce", 0⟩, none⟩) = .ok resp ∧
        ProofJwt.fromStr Ex.ext (compact Ex.ext ⟨proofTyp, alg, Ex.header.additionalHeader⟩ b (some (str! "c2ln"))) = .ok jwt ∧
        jwt.verify 1000 = .ok () ∧ ∀ k', k' ≠ k → k'.Done verifies 1000 Ex.metadata o
          (compact Ex.ext ⟨proofTyp, alg, Ex.header.additionalHeader⟩ b (some (str! "c2ln"))) jwt resp := by
    intro verifies alg b o ht ha hn hw ho k1 k2 k3 k4
    obtain ⟨pre, resp, jwt, h1, h2, h3, h4, rfl, ⟨pop, h5, rfl, h6⟩, h7⟩ := Ex.passes (alg := alg) ht ha hn hw ho
    refine ⟨pre, resp, _, h1, h2, h3, h4, fun k' hk => ?_⟩
    cases k' with
    | algorithm => exact ⟨pop, h5, k1 (Ne.symm hk)⟩
    | signature => exact ⟨pop, h5, h6 ▸ Ex.signed_with verifies _ _ _ (k2 (Ne.symm hk))⟩
    | expiry => exact k3 (Ne.symm hk)
    | offer => unfold Check.Done; rw [h7]; exact k4 (Ne.symm hk)
  have hsig : ∀ m, Ex.scheme .EdDSA [1, 2, 3] m (utf8Encode (str! "sig")) := fun _ => ⟨rfl, rfl, rfl⟩
  have hasym : Asymmetric .EdDSA := by simp [Asymmetric]
  cases k with
  | algorithm =>
    refine ⟨Ex.ext, Ex.confused, 1000, Ex.metadata, Ex.mdocOffer, Ex.didDoc, ⟨100, str! "nonce", 0⟩, none, Ex.mdoc,
      str! "jwt", _, Ex.distinct, by decide +kernel, by decide +kernel, go Ex.confused .HS256 Ex.plainBody Ex.mdocOffer
        Ex.timesOk_plainBody rfl rfl hwin (hpre _ (by simp)) (fun h => absurd rfl h) (fun _ _ => ⟨rfl, rfl⟩)
        (fun _ => by simp [Ex.plainBody]) (fun _ => Ex.offered), ?_⟩
    rintro ⟨⟨jwt, did, key, hj, -, ha, -⟩, -⟩
    obtain rfl := hread Ex.timesOk_plainBody hj
    exact ha (by simp)
  | signature =>
    refine ⟨Ex.ext, Ex.unforged, 1000, Ex.metadata, Ex.mdocOffer, Ex.didDoc, ⟨100, str! "nonce", 0⟩, none, Ex.mdoc,
      str! "jwt", _, Ex.distinct, by decide +kernel, by decide +kernel, go Ex.unforged .EdDSA Ex.plainBody Ex.mdocOffer
        Ex.timesOk_plainBody rfl rfl hwin (hpre _ (by simp)) (fun _ => hasym) (fun h => absurd rfl h)
        (fun _ => by simp [Ex.plainBody]) (fun _ => Ex.offered), ?_⟩
    rintro ⟨⟨jwt, did, key, -, -, -, -, ⟨_, _, _, _, _, _, _, _, _, hs⟩, -⟩, -⟩
    exact hs
  | expiry =>
    have ht : TimesOk Ex.ext Ex.expiring :=
      Ex.timesOk _ (by decide) (by simp [Ex.expiring, Ex.plainBody]) (by simp [Ex.expiring])
    refine ⟨Ex.ext, Ex.scheme, 1000, Ex.metadata, Ex.mdocOffer, Ex.didDoc, ⟨100, str! "nonce", 0⟩, none, Ex.mdoc,
      str! "jwt", _, Ex.distinct, by decide +kernel, by decide +kernel, go Ex.scheme .EdDSA Ex.expiring Ex.mdocOffer
        ht rfl rfl (by simp [InWindow, Ex.expiring, Ex.plainBody]) (hpre _ (by simp)) (fun _ => hasym) (fun _ => hsig)
        (fun h => absurd rfl h) (fun _ => Ex.offered), ?_⟩
    rintro ⟨⟨jwt, did, key, hj, -, -, -, -, -, -, -, -, he⟩, -⟩
    obtain rfl := hread ht hj
    exact absurd (he 1000 rfl) (by decide)
  | offer =>
    refine ⟨Ex.ext, Ex.scheme, 1000, Ex.metadata, Ex.otherOffer, Ex.didDoc, ⟨100, str! "nonce", 0⟩, none, Ex.mdoc,
      str! "jwt", _, Ex.distinct, by decide +kernel, by decide +kernel, go Ex.scheme .EdDSA Ex.plainBody Ex.otherOffer
        Ex.timesOk_plainBody rfl rfl hwin (hpre _ (by simp)) (fun _ => hasym) (fun _ => hsig)
        (fun _ => by simp [Ex.plainBody]) (fun h => absurd rfl h), ?_⟩
    rintro ⟨-, e, he, hs⟩
    cases List.mem_singleton.1 he
    have := (resolve_id_ok_iff ..).2 (show FirstEntry Ex.metadata (str! "a") Ex.mdoc from hs)
    exact absurd this (by decide +kernel)

end Oid4vci
