import Verif.Spec.KeyProof
import Verif.Props.Evaluate
import Verif.Props.JwtText

/-! C120: what an issuer has to add to the library's checks so that exactly the valid key proofs are accepted. -/

namespace Oid4vci

open Spec CredentialIssuer

theorem checkedClient_iff (o : CredentialOffer) (client iss : Option Str) :
    (∀ c, checkedClient o client = some c → iss = c) ↔
      (client ≠ none ∨ ¬ PurelyPreAuthorized o → iss = client) := by
  unfold checkedClient PurelyPreAuthorized
  cases client <;> cases o.grants.preAuthorizedCodeFlow <;> cases o.grants.authorizedCodeFlow <;> simp

/-- C120. For an issuer with distinct ids and a nonce within its lifetime: the proof passes pre-evaluation, evaluation,
`verify` and the checks left to the caller if and only if it is a valid key proof of type `JWT` and the credential was
offered. -/
theorem C120_careful (x : Ext) (verifies : Scheme) (now : Time) (m : CredentialIssuerMetadata) (o : CredentialOffer)
    (d : x.Doc) (c : CNonceOptions) (client : Option Str) (format : CredentialFormatProfile) (type token : Str)
    (hm : DistinctIds m.credentialsSupported) (hn : now ≤ nonceExpiry c) (hmax : nonceExpiry c ≤ Time.max) :
    (∃ pre resp jwt, preEvaluateCredentialRequest x ⟨format, some ⟨type, token⟩⟩ = .ok pre ∧
      evaluateCredentialRequest x now m ⟨format, some ⟨type, token⟩⟩ (some o) none (some d) (some ⟨some c, client⟩)
        = .ok resp ∧
      ProofJwt.fromStr x token = .ok jwt ∧ jwt.verify now = .ok () ∧
      LeftToCaller verifies now m o token jwt resp) ↔
    EqFold type (str! "JWT") ∧
      ValidKeyProof x verifies now ⟨m.credentialIssuer, c.expectedCNonce, checkedClient o client, d⟩ token ∧
      ∃ e ∈ o.credentials, StandsFor m e format := by
  constructor
  · rintro ⟨⟨did'⟩, resp, jwt, h1, h2, h3, h4, ⟨pop, hp, ha, hs⟩, hx, ho⟩
    obtain ⟨-, -, o', jwt', did, key, sig, msg, ho', ⟨⟨p, hpr, hj⟩, htyp, ⟨c', hc, hnonce, -⟩, haud, hiss⟩, hk, -, -, rfl⟩ :=
      (evaluate_ok_iff ..).1 h2
    cases ho'; cases hpr; cases hc; cases hp
    rw [h3] at hj; cases hj
    have hv := ((preEvaluate_ok_iff ..).1 h1).1
    refine ⟨((C19_request x _).1 hv _ rfl).1, ⟨jwt, did, key, (C67_jwt ..).1 h3, htyp, ha, hk, hs, haud, hnonce,
      (checkedClient_iff ..).2 hiss, ?_⟩, ho⟩
    obtain ⟨hb, he⟩ := (C20_window_partial ..).1 h4
    refine ⟨hb, fun ex hex => ?_⟩
    have h5 := he ex hex
    exact Int.lt_iff_le_and_ne.2 ⟨h5, fun e => hx (by rw [e]; exact hex)⟩
  · rintro ⟨ht, ⟨jwt, did, key, hj, htyp, ha, hk, hs, haud, hnonce, hiss, hb, he⟩, ho⟩
    have hj' := (C67_jwt ..).2 hj
    have hsig : jwt.signature ≠ none := by
      obtain ⟨h', b', s', sg, rfl, n1, n2, n3, -⟩ := hs
      obtain ⟨h, b, rest, hnd, heq, -, -, hr⟩ := hj
      have e := splitOn_dotted (h :: b :: rest) (by simp) hnd
      rw [← heq, splitOn_dotted _ (by simp) (by simp [n1, n2, n3])] at e
      cases e
      simp [hr]
    obtain ⟨sg, hsg⟩ := (extractSignature_ok x jwt).2 (.inl hsig)
    obtain ⟨msg, hmsg⟩ := signable_ok x jwt
    have h2 := (evaluate_ok_iff x now m ⟨format, some ⟨type, token⟩⟩ (some o) none (some d) (some ⟨some c, client⟩) _).2
      ⟨hm, rfl, o, jwt, did, key, sg, msg, rfl, ⟨⟨_, rfl, hj'⟩, htyp, ⟨c, rfl, hnonce, hn, hmax⟩, haud,
        (checkedClient_iff ..).1 hiss⟩, hk, hsg, hmsg, rfl⟩
    have hv : CredentialRequest.validate x ⟨format, some ⟨type, token⟩⟩ = .ok () :=
      (C19_request x _).2 fun p hp => by cases hp; exact ⟨ht, jwt, hj', htyp⟩
    refine ⟨_, _, jwt, C26_pre_succeeds _ _ _ _ _ _ _ _ _ hv h2, h2, hj',
      (C20_window_partial ..).2 ⟨hb, fun ex hex => Int.le_of_lt (he ex hex)⟩, ⟨_, rfl, ha, hs⟩, ?_, ho⟩
    intro hex
    exact absurd (he now hex) (by simp)

namespace Ex

/-- A scheme in which the octets of `sig` are the only signature of the example's key, with `EdDSA`. -/
def scheme : Scheme := fun alg key _ sig => alg = .EdDSA ∧ key = [1, 2, 3] ∧ sig = utf8Encode (str! "sig")

/-- An offer for the credential with the id `b`. -/
def mdocOffer : CredentialOffer :=
  ⟨str! "https://issuer", [.credentialId (str! "a"), .credentialId (str! "b")], ⟨none, some ⟨str! "code", none⟩⟩⟩

theorem signed : Signed scheme .EdDSA [1, 2, 3] (compact ext header plainBody (some (str! "c2ln"))) := by
  refine ⟨base64urlEncode (utf8Encode header.ser.print), base64urlEncode (utf8Encode (plainBody.ser ext).print),
    str! "c2ln", _, by simp [compact], ?_, ?_, by simp [NoDot], ?_, rfl, rfl, rfl⟩
  · exact noDot_encode _
  · exact noDot_encode _
  · have := isBase64url_encode (utf8Encode (str! "sig"))
    rwa [show base64urlEncode (utf8Encode (str! "sig")) = str! "c2ln" by decide +kernel] at this

theorem validKeyProof : ValidKeyProof ext scheme 1000 ⟨metadata.credentialIssuer, str! "nonce",
    checkedClient mdocOffer none, didDoc⟩ (compact ext header plainBody (some (str! "c2ln"))) :=
  ⟨⟨header, plainBody, some (str! "c2ln")⟩, _, _, (C67_jwt ..).1 fromStr_request, bound.typ,
    by simp [Asymmetric, header], keyResolved, signed, rfl, rfl, (checkedClient_iff ..).2 bound.iss,
    by simp [InPeriod, plainBody]⟩

end Ex

/-- The example's request passes all checks. -/
example : ∃ pre resp jwt, preEvaluateCredentialRequest Ex.ext Ex.request = .ok pre ∧
    evaluateCredentialRequest Ex.ext 1000 Ex.metadata Ex.request (some Ex.mdocOffer) none (some Ex.didDoc) Ex.options
      = .ok resp ∧
    ProofJwt.fromStr Ex.ext (compact Ex.ext Ex.header Ex.plainBody (some (str! "c2ln"))) = .ok jwt ∧
    jwt.verify 1000 = .ok () ∧
    LeftToCaller Ex.scheme 1000 Ex.metadata Ex.mdocOffer
      (compact Ex.ext Ex.header Ex.plainBody (some (str! "c2ln"))) jwt resp :=
  (C120_careful Ex.ext Ex.scheme 1000 Ex.metadata Ex.mdocOffer Ex.didDoc ⟨100, str! "nonce", 0⟩ none Ex.mdoc
    (str! "jwt") _ Ex.distinct (by decide +kernel) (by decide +kernel)).2
    ⟨(uppercase_eq_iff _).1 (by decide +kernel), Ex.validKeyProof, .credentialId (str! "b"), by simp [Ex.mdocOffer],
      [Ex.entry none Ex.ldp, Ex.entry (some (str! "a")) Ex.ldp, Ex.entry none Ex.ldp],
      Ex.entry (some (str! "b")) Ex.mdoc, [], rfl, rfl, rfl, by decide +kernel⟩

end Oid4vci
