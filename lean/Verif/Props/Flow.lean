import Verif.Props.Evaluate
import Verif.Props.Response
import Verif.Props.Wire

/-!
The whole flow: C50 an honest wallet succeeds; and what C29, C30 and C31 mean for the result of
`evaluate_credential_request`.
-/

namespace Oid4vci

open Spec CredentialIssuer AccessToken

/-! ### C50 -/

/-- C50. The issuer creates an offer, accepts the wallet's token request, hands out a nonce at time
`created`, and accepts the wallet's proof at time `now` within the nonce's lifetime. -/
theorem C50_honest_flow (x : Ext) (m : CredentialIssuerMetadata) (cs : CredentialOrIds)
    (endpoint : Option Str) (p : PreAuthorizedCodeFlow) (pin : Option UInt64)
    (hm : DistinctIds m.credentialsSupported) (hcs : ∀ c ∈ cs, Resolvable m c)
    (hpin : pin ≠ none ↔ p.userPinRequired = some true)
    (hlen : ∀ n, pin = some n → AtMostDigits 8 n.toNat)
    -- the token response
    (created : Time) (token nonce : Str) (type : AccessTokenType) (lifetime : UInt32)
    (expires interval : Option UInt32) (scope : Option Str) (pending : Option Bool) :
    ∃ offer url resp, createOffer m cs endpoint none (some p) = .ok (offer, url) ∧
      evaluateAccessTokenRequest ⟨.preAuthorizedCodeFlow p.code pin⟩ (some offer) (some ⟨pin⟩) = .ok () ∧
      createAccessTokenSuccessResponse created token type expires scope (some nonce) (some lifetime)
        pending interval = .ok (resp, created) ∧
      resp.accessToken = token ∧ resp.cNonce = some nonce ∧ resp.cNonceExpiresIn = some lifetime ∧
      -- the wallet's proof
      ∀ (h : ProofJwtHeader) (b : ProofJwtBody) (sig : Str) (client : Option Str)
        (format : CredentialFormatProfile) (doc : x.Doc) (did : Str) (key : Bytes) (now : Time),
        h.typ = proofTyp → b.audience = m.credentialIssuer → b.nonce = nonce → b.issuer = client →
        TimesOk x b → NoDot sig → KeyResolved x h (some doc) did key →
        now ≤ created + lifetime.toNat * 1000000000 →
        created + lifetime.toNat * 1000000000 ≤ Time.max →
        ∃ result, evaluateCredentialRequest x now m
            ⟨format, some ⟨str! "jwt", compact x h b (some sig)⟩⟩ (some offer) none (some doc)
            (some ⟨some ⟨lifetime, nonce, created⟩, client⟩) = .ok result ∧
          result.subjectId = some did ∧ result.credential = format ∧
          ∃ pop, result.proofOfPossession = some pop ∧ pop.publicKey = key ∧ pop.algorithm = h.alg := by
  obtain ⟨⟨offer, url⟩, ho⟩ := (C12_create_offer m cs endpoint none (some p)).1.2 ⟨hm, rfl, hcs⟩
  obtain ⟨-, -, hp, ha⟩ := (C12_create_offer m cs endpoint none (some p)).2.1 _ _ ho
  refine ⟨offer, url, _, ho, ?_, rfl, rfl, rfl, rfl, ?_⟩
  · rw [C01_accept_iff]
    refine ⟨_, _, p, rfl, hp, rfl, hpin, fun n hn => ⟨?_, hn⟩⟩
    exact Nat.le_trans (hlen n hn) (by decide)
  · intro h b sig client format doc did key now ht haud hn hi htimes hsig hk hnow hmax
    obtain ⟨s, hs⟩ := (extractSignature_ok x ⟨h, b, some sig⟩).2 (.inl (by simp))
    obtain ⟨msg, hmsg⟩ := signable_ok x ⟨h, b, some sig⟩
    refine ⟨_, (evaluate_ok_iff ..).2 ⟨hm, rfl, offer, ⟨h, b, some sig⟩, did, key, s, msg, rfl,
      ⟨⟨_, rfl, fromStr_compact x h b (some sig) htimes (by simpa using hsig)⟩, ?_,
        ⟨_, rfl, hn, hnow, hmax⟩, haud, fun _ => hi⟩, hk, hs, hmsg, rfl⟩, rfl, rfl, _, rfl, rfl, rfl⟩
    rw [← C19_typ ⟨h, b, some sig⟩, C19_typ, ht, ← lowercase_eq_iff]
    decide +kernel

/-- The example run: an offer with PIN for two credentials, and the example proof. -/
example : ∃ offer url result, createOffer Ex.metadata [.credentialId (str! "b"), .credential Ex.ldp]
      none none (some ⟨str! "code", some true⟩) = .ok (offer, url) ∧
    evaluateAccessTokenRequest ⟨.preAuthorizedCodeFlow (str! "code") (some 1234)⟩ (some offer)
      (some ⟨some 1234⟩) = .ok () ∧
    evaluateCredentialRequest Ex.ext 1000 Ex.metadata Ex.request (some offer) none (some Ex.didDoc)
      Ex.options = .ok result ∧ result.subjectId = some (str! "did:example:h") := by
  obtain ⟨offer, url, resp, ho, ht, -, -, -, -, h⟩ := C50_honest_flow Ex.ext Ex.metadata
    [.credentialId (str! "b"), .credential Ex.ldp] none ⟨str! "code", some true⟩ (some 1234)
    Ex.distinct_metadata (by
      intro c hc
      simp only [List.mem_cons, List.not_mem_nil, or_false] at hc
      rcases hc with rfl | rfl
      · exact (knownId_iff _ _).2 ⟨Ex.mdoc, by decide +kernel⟩
      · trivial)
    (by simp) (by intro n hn; cases hn; rw [atMostDigits_iff]; decide)
    0 (str! "token") (str! "nonce") .bearer 100 none none none none
  obtain ⟨result, h1, h2, -⟩ := h Ex.header Ex.plainBody (str! "c2ln") none Ex.mdoc Ex.didDoc _ _ 1000
    rfl rfl rfl rfl Ex.timesOk_plainBody (by simp [NoDot]) Ex.keyResolved (by decide) (by decide)
  exact ⟨offer, url, result, ho, ht, h1, h2⟩

/-- C50. Moreover the request passes pre-evaluation with the same DID, and the issuer can answer it
with any credential and nonce. -/
theorem C50_answer (x : Ext) (h : ProofJwtHeader) (b : ProofJwtBody) (sig : Str)
    (format : CredentialFormatProfile) (doc : x.Doc) (did : Str) (key : Bytes) (now : Time)
    (ht : h.typ = proofTyp) (htimes : TimesOk x b) (hsig : NoDot sig)
    (hk : KeyResolved x h (some doc) did key) (c : CredentialFormatProfile) (nonce : Option CNonce) :
    preEvaluateCredentialRequest x ⟨format, some ⟨str! "jwt", compact x h b (some sig)⟩⟩
      = .ok ⟨some did⟩ ∧
    ∃ resp, createCredentialSuccessResponse x now
      ⟨format, some ⟨str! "jwt", compact x h b (some sig)⟩⟩ (some (.credential c)) nonce
      = .ok (resp, now) ∧ resp.format = formatName format ∧ resp.credential ≠ none ∧
      resp.cNonce = nonce.map (·.cNonce) := by
  have hj := fromStr_compact x h b (some sig) htimes (by simpa using hsig)
  have hv : CredentialRequest.validate x ⟨format, some ⟨str! "jwt", compact x h b (some sig)⟩⟩
      = .ok () := by
    rw [C19_request]
    intro q hq
    cases hq
    have hu : EqFold (str! "jwt") (str! "JWT") := (uppercase_eq_iff _).1 (by decide +kernel)
    refine ⟨hu, _, hj, ?_⟩
    simp only
    rw [ht, ← lowercase_eq_iff]
    decide +kernel
  obtain ⟨-, hd⟩ := (keyResolved_iff (j := ⟨h, b, some sig⟩)).2 ⟨rfl, did, rfl, hk⟩
  refine ⟨(preEvaluate_ok_iff x _ _).2 ⟨hv, .inr ⟨_, _, rfl, hj, hd⟩⟩, ?_⟩
  obtain ⟨e, he⟩ : ∃ e, CredentialFormatProfileOrEncoded.tryFrom c = .ok e := by
    cases c <;> exact ⟨_, rfl⟩
  exact ⟨⟨formatName format, some e, none, nonce.map (·.cNonce), nonce.bind (·.cNonceExpiresIn)⟩,
    success_eq_ok.2 ⟨hv, rfl, rfl, rfl, rfl, rfl, e, he, rfl⟩, rfl, by simp, rfl⟩

/-- C50. If the issuer names a wallet endpoint without query and fragment, the wallet finds the offer,
and thus the code, in the URL (for offers without deeply nested JSON-LD contexts, see C14). -/
theorem C50_from_url (m : CredentialIssuerMetadata) (cs : CredentialOrIds) (endpoint : Str)
    (a : Option AuthorizedCodeFlow) (p : Option PreAuthorizedCodeFlow) (offer : CredentialOffer)
    (url : Str) (hq : '?' ∉ endpoint) (hf : '#' ∉ endpoint) (hg : ∀ c ∈ cs, GoodEntry 122 c)
    (h : createOffer m cs (some endpoint) a p = .ok (offer, url)) :
    ∃ v, urlParams url = [(str! "credential_offer", v)] ∧
      (urlDecode v).bind CredentialOffer.fromJson = some offer ∧
      offer.grants.preAuthorizedCodeFlow = p := by
  obtain ⟨v, hv, hd⟩ := C16_endpoint_partial m cs endpoint a p offer url hq hf h
  obtain ⟨-, hc, hp, -⟩ := (C12_create_offer m cs (some endpoint) a p).2.1 _ _ h
  have hfit := fits_offer (n := 122) offer (hc ▸ hg)
  refine ⟨v, hv, ?_, hp⟩
  rw [hd]
  exact (Json.read_parse CredentialOffer.follows (Json.parse_print _ hfit.1 hfit.2)).trans
    (CredentialOffer.de_ser offer (hc ▸ fun c hc => GoodEntry.rust (hg c hc)))

/-! ### C29, C30, C31 for `evaluate_credential_request` -/

section

variable (x : Ext) (now : Time) (m : CredentialIssuerMetadata) (format : CredentialFormatProfile)
  (offer : Option CredentialOffer) (asm : Option AuthorizationServerMetadata) (doc : Option x.Doc)
  (options : Option EvaluateCredentialRequestOptions)

/-- C29 is violated by `evaluate_credential_request` for every issuer whose identifier has a dot: an
accepted proof stays accepted, with the same key and subject, when its signature is removed. -/
theorem C29_evaluate_unsigned (type : Str) (h : ProofJwtHeader) (b : ProofJwtBody) (sig : Str)
    (ht : TimesOk x b) (hsig : NoDot sig) (hdot : '.' ∈ m.credentialIssuer)
    (resp : CredentialIssuerEvaluateRequestResponse)
    (he : evaluateCredentialRequest x now m ⟨format, some ⟨type, compact x h b (some sig)⟩⟩ offer asm
      doc options = .ok resp) :
    ∃ resp', evaluateCredentialRequest x now m ⟨format, some ⟨type, compact x h b none⟩⟩ offer asm
      doc options = .ok resp' ∧ resp'.subjectId = resp.subjectId ∧
      resp'.credential = resp.credential ∧
      resp'.proofOfPossession.map (·.publicKey) = resp.proofOfPossession.map (·.publicKey) := by
  obtain ⟨hm, ha, o, jwt, did, key, s, msg, ho, ⟨⟨p, hp, hj⟩, htyp, hn, haud, hi⟩, hk, -, -, rfl⟩ :=
    (evaluate_ok_iff ..).1 he
  cases hp
  rw [fromStr_compact x h b (some sig) ht (by simpa using hsig)] at hj
  cases hj
  obtain ⟨s', hs'⟩ := (extractSignature_ok x ⟨h, b, none⟩).2
    (.inr fun hd => hd.2.2.1 (by simp only at haud; rwa [haud]))
  obtain ⟨msg', hmsg'⟩ := signable_ok x ⟨h, b, none⟩
  exact ⟨_, (evaluate_ok_iff ..).2 ⟨hm, ha, o, ⟨h, b, none⟩, did, key, s', msg', ho,
    ⟨⟨_, rfl, fromStr_compact x h b none ht (by simp)⟩, htyp, hn, haud, hi⟩, hk, hs', hmsg', rfl⟩,
    rfl, rfl, rfl⟩

/-- An issuer whose identifier has dots. -/
def Ex.dottedMetadata : CredentialIssuerMetadata :=
  { Ex.metadata with credentialIssuer := str! "https://issuer.example.com" }

/-- An unsigned proof is accepted. -/
theorem Ex.evaluates_unsigned : ∃ offer resp, evaluateCredentialRequest Ex.ext 1000 Ex.dottedMetadata
    ⟨Ex.mdoc, some ⟨str! "jwt", compact Ex.ext Ex.header Ex.body none⟩⟩ (some offer) none
    (some Ex.didDoc) (some ⟨some ⟨100, str! "nonce", 0⟩, some (str! "client")⟩) = .ok resp := by
  obtain ⟨offer, -, -, -, -, -, -, -, -, h⟩ := C50_honest_flow Ex.ext Ex.dottedMetadata
    [] none ⟨str! "code", some true⟩ (some 1234) Ex.distinct_metadata (by simp) (by simp)
    (by intro n hn; cases hn; rw [atMostDigits_iff]; decide)
    0 (str! "token") (str! "nonce") .bearer 100 none none none none
  obtain ⟨result, h1, -⟩ := h Ex.header Ex.body (str! "c2ln") (some (str! "client")) Ex.mdoc Ex.didDoc
    _ _ 1000 rfl rfl rfl rfl Ex.timesOk_body (by simp [NoDot]) Ex.keyResolved (by decide) (by decide)
  obtain ⟨resp, h2, -⟩ := C29_evaluate_unsigned _ _ _ _ _ _ _ _ _ _ _ _ Ex.timesOk_body
    (by simp [NoDot]) (by decide) _ h1
  exact ⟨offer, resp, h2⟩

/-- C30 for `evaluate_credential_request`: the returned signature is that of the JWT exactly when no
string in header and body has a dot; in particular never if the issuer's identifier has one. -/
theorem C30_evaluate_iff_partial (p : CredentialRequestProof) (jwt : ProofJwt) (sig : Str)
    (pop : ProofOfPossession) (resp : CredentialIssuerEvaluateRequestResponse)
    (hj : ProofJwt.fromStr x p.jwt = .ok jwt) (hsig : jwt.signature = some sig)
    (he : evaluateCredentialRequest x now m ⟨format, some p⟩ offer asm doc options = .ok resp)
    (hpop : resp.proofOfPossession = some pop) :
    (pop.signature = utf8Encode sig ↔ HeaderDotFree jwt.header ∧ BodyDotFree x jwt.body) ∧
    ('.' ∈ m.credentialIssuer → pop.signature ≠ utf8Encode sig) := by
  obtain ⟨hm, ha, o, jwt', did, key, s, msg, ho, ⟨⟨p', hp, hj'⟩, -, -, haud, -⟩, -, hs, -, rfl⟩ :=
    (evaluate_ok_iff ..).1 he
  cases hp
  rw [hj] at hj'; cases hj'
  cases hpop
  have key : s = utf8Encode sig ↔ HeaderDotFree jwt.header ∧ BodyDotFree x jwt.body := by
    rw [← C30_iff_partial x jwt sig hsig, hs]
    simp
  exact ⟨key, fun hd h => (key.1 h).2.2.1 (by rwa [haud])⟩

/-- C31, full statement. -/
def C31_statement : Prop := ∀ (x : Ext) (now : Time) (m : CredentialIssuerMetadata)
  (format : CredentialFormatProfile) (offer : Option CredentialOffer)
  (asm : Option AuthorizationServerMetadata) (doc : Option x.Doc)
  (options : Option EvaluateCredentialRequestOptions) (type : Str) (hs bs : Str) (rest : List Str)
  (pop : ProofOfPossession) (resp : CredentialIssuerEvaluateRequestResponse),
  (∀ p ∈ hs :: bs :: rest, NoDot p) →
  evaluateCredentialRequest x now m ⟨format, some ⟨type, dotted (hs :: bs :: rest)⟩⟩ offer asm doc
    options = .ok resp →
  resp.proofOfPossession = some pop → pop.message = utf8Encode (dotted [hs, bs])

/-- C31 is violated by every accepted request: the message is never what the holder signed. -/
theorem C31_evaluate_never (type : Str) (hs bs : Str) (rest : List Str)
    (hnd : ∀ p ∈ hs :: bs :: rest, NoDot p) (pop : ProofOfPossession)
    (resp : CredentialIssuerEvaluateRequestResponse)
    (he : evaluateCredentialRequest x now m ⟨format, some ⟨type, dotted (hs :: bs :: rest)⟩⟩ offer asm
      doc options = .ok resp)
    (hpop : resp.proofOfPossession = some pop) :
    pop.message ≠ utf8Encode (dotted [hs, bs]) := by
  obtain ⟨-, -, o, jwt, did, key, s, msg, ho, ⟨⟨p, hp, hj⟩, -⟩, -, -, hmsg, rfl⟩ :=
    (evaluate_ok_iff ..).1 he
  cases hp
  cases hpop
  intro h
  exact C31_never_signing_input x hs bs rest jwt hnd hj (by rw [hmsg, ← h])

/-- The segments of the example. -/
theorem Ex.evaluates_segments : ∃ hs bs rest, (∀ p ∈ hs :: bs :: rest, NoDot p) ∧
    Ex.request = ⟨Ex.mdoc, some ⟨str! "jwt", dotted (hs :: bs :: rest)⟩⟩ := by
  refine ⟨base64urlEncode (utf8Encode Ex.header.ser.print),
    base64urlEncode (utf8Encode (Ex.plainBody.ser Ex.ext).print), [str! "c2ln"], ?_, rfl⟩
  intro p hp
  simp only [List.mem_cons, List.not_mem_nil, or_false] at hp
  rcases hp with rfl | rfl | rfl
  · exact noDot_encode _
  · exact noDot_encode _
  · simp [NoDot]

/-- C31 does not hold. -/
theorem C31_refuted : ¬ C31_statement := by
  intro h
  obtain ⟨resp, he⟩ := Ex.evaluates
  obtain ⟨hs, bs, rest, hnd, hr⟩ := Ex.evaluates_segments
  obtain ⟨-, -, o, jwt, did, key, s, msg, ho, -, -, -, -, hresp⟩ := (evaluate_ok_iff ..).1 he
  rw [hr] at he
  have hpop : resp.proofOfPossession = some ⟨jwt.header.alg, key, msg, s⟩ := by rw [hresp]
  exact C31_evaluate_never _ _ _ _ _ _ _ _ _ hs bs rest hnd _ resp he hpop
    (h _ _ _ _ _ _ _ _ _ hs bs rest _ resp hnd he hpop)

end

/-- C50, the answer to the example request. -/
example : ∃ resp, createCredentialSuccessResponse Ex.ext 1000
      ⟨Ex.mdoc, some ⟨str! "jwt", compact Ex.ext Ex.header Ex.plainBody (some (str! "c2ln"))⟩⟩
      (some (.credential Ex.mdoc)) none = .ok (resp, 1000) ∧ resp.credential ≠ none := by
  obtain ⟨-, resp, h, -, hc, -⟩ := C50_answer Ex.ext Ex.header Ex.plainBody (str! "c2ln") Ex.mdoc Ex.didDoc _ _ 1000
    rfl Ex.timesOk_plainBody (by simp [NoDot]) Ex.keyResolved Ex.mdoc none
  exact ⟨resp, h, hc⟩
/-- C30, with a dot in the issuer's identifier: the signature that is returned is not that of the JWT. -/
example : ∃ offer resp, evaluateCredentialRequest Ex.ext 1000 Ex.dottedMetadata
      ⟨Ex.mdoc, some ⟨str! "jwt", compact Ex.ext Ex.header Ex.body (some (str! "c2ln"))⟩⟩ (some offer) none
      (some Ex.didDoc) (some ⟨some ⟨100, str! "nonce", 0⟩, some (str! "client")⟩) = .ok resp ∧
    ∀ pop, resp.proofOfPossession = some pop → pop.signature ≠ utf8Encode (str! "c2ln") := by
  obtain ⟨offer, -, -, -, -, -, -, -, -, h⟩ := C50_honest_flow Ex.ext Ex.dottedMetadata
    [] none ⟨str! "code", some true⟩ (some 1234) Ex.distinct_metadata (by simp) (by simp)
    (by intro n hn; cases hn; rw [atMostDigits_iff]; decide)
    0 (str! "token") (str! "nonce") .bearer 100 none none none none
  obtain ⟨result, h1, -⟩ := h Ex.header Ex.body (str! "c2ln") (some (str! "client")) Ex.mdoc Ex.didDoc
    _ _ 1000 rfl rfl rfl rfl Ex.timesOk_body (by simp [NoDot]) Ex.keyResolved (by decide) (by decide)
  exact ⟨offer, result, h1, fun pop hpop => (C30_evaluate_iff_partial _ _ _ _ _ _ _ _ _ _ _ _ _
    (fromStr_compact _ _ _ _ Ex.timesOk_body (by rintro s ⟨⟩; simp [NoDot])) rfl h1 hpop).2 (by decide)⟩
/-- C50, the offer read from its URL. -/
example : ∃ offer url v, createOffer Ex.metadata [] (some (str! "https://w/offer")) none
      (some ⟨str! "code", some true⟩) = .ok (offer, url) ∧
    urlParams url = [(str! "credential_offer", v)] ∧ (urlDecode v).bind CredentialOffer.fromJson = some offer := by
  obtain ⟨⟨offer, url⟩, h⟩ := (C12_create_offer Ex.metadata [] (some (str! "https://w/offer")) none
    (some ⟨str! "code", some true⟩)).1.2 ⟨Ex.distinct_metadata, rfl, by simp⟩
  obtain ⟨v, h1, h2, -⟩ := C50_from_url _ _ _ _ _ _ _ (by decide) (by decide) (by simp) h
  exact ⟨offer, url, v, h, h1, h2⟩

end Oid4vci
