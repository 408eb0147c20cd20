import Verif.Spec.Wallet
import Verif.Props.Flow
import Verif.Props.History
import Verif.Props.Documents

/-!
C115 a URL determines endpoint and offer, C116 failed token requests and the issuer's secrets, C117 the flow over the
wire.
-/

namespace Oid4vci

open Spec CredentialIssuer AccessToken

/-! ### C115 -/

theorem split_last {c : Char} {a a' e e' : Str} (he : c ∉ e) (he' : c ∉ e') (h : a ++ c :: e = a' ++ c :: e') :
    a = a' ∧ e = e' := by
  rcases List.append_eq_append_iff.1 h with ⟨t, h1, h2⟩ | ⟨t, h1, h2⟩
  · cases t with
    | nil => simp only [List.nil_append, List.cons.injEq, true_and] at h2; exact ⟨by simpa using h1.symm, h2⟩
    | cons d t =>
      simp only [List.cons_append, List.cons.injEq] at h2
      exact absurd (h2.2 ▸ (by simp : c ∈ t ++ c :: e')) he
  · cases t with
    | nil => simp only [List.nil_append, List.cons.injEq, true_and] at h2; exact ⟨by simpa using h1, h2.symm⟩
    | cons d t =>
      simp only [List.cons_append, List.cons.injEq] at h2
      exact absurd (h2.2 ▸ (by simp : c ∈ t ++ c :: e)) he'

theorem offerUrlPrefix_inj {e e' : Option Str} (h : offerUrlPrefix e = offerUrlPrefix e') : e = e' := by
  cases e with
  | none =>
    cases e' with
    | none => rfl
    | some u =>
      have := congrArg List.getLast? h
      simp only [offerUrlPrefix, List.getLast?_append, List.getLast?_singleton, Option.some_or] at this
      exact absurd this (by decide)
  | some u =>
    cases e' with
    | none =>
      have := congrArg List.getLast? h
      simp only [offerUrlPrefix, List.getLast?_append, List.getLast?_singleton, Option.some_or] at this
      exact absurd this (by decide)
    | some u' =>
      simp only [offerUrlPrefix] at h
      rw [List.append_cancel_right h]

/-- C115. Offers with the same URL are the same and were created with the same endpoint, however deeply nested they
are and whatever numbers they contain. -/
theorem C115_url_determines (m m' : CredentialIssuerMetadata) (cs cs' : CredentialOrIds)
    (endpoint endpoint' : Option Str) (a a' : Option AuthorizedCodeFlow) (p p' : Option PreAuthorizedCodeFlow)
    (offer offer' : CredentialOffer) (url : Str)
    (hg : ∀ c ∈ cs, RustEntry c) (hg' : ∀ c ∈ cs', RustEntry c)
    (h : createOffer m cs endpoint a p = .ok (offer, url))
    (h' : createOffer m' cs' endpoint' a' p' = .ok (offer', url)) : offer = offer' ∧ endpoint = endpoint' := by
  obtain ⟨-, hc, -, -⟩ := (C12_create_offer m cs endpoint a p).2.1 _ _ h
  obtain ⟨-, hc', -, -⟩ := (C12_create_offer m' cs' endpoint' a' p').2.1 _ _ h'
  have hu := createOffer_url _ _ _ _ _ _ _ h
  rw [createOffer_url _ _ _ _ _ _ _ h'] at hu
  have hne : ∀ s : Str, '=' ∉ urlencode s := fun s =>
    payload_not_mem (payload_urlencode s) '=' (by decide) (by decide)
  have hshape : ∀ (b : Str) (e : Str), b ++ str! "credential_offer=" ++ e
      = (b ++ str! "credential_offer") ++ '=' :: e := by
    intro b e
    rw [List.append_assoc, List.append_assoc]
    rfl
  rw [hshape, hshape] at hu
  obtain ⟨h1, h2⟩ := split_last (hne _) (hne _) hu
  refine ⟨C64_texts_distinct.2.2.2.2 _ _ (hc ▸ hg) (hc' ▸ hg') (C55_urlencode_injective _ _ h2).symm, ?_⟩
  exact (offerUrlPrefix_inj (List.append_cancel_right h1)).symm

/-- C115. So different codes, and different decisions about a PIN, always show in the URL. -/
theorem C115_grant (m : CredentialIssuerMetadata) (cs : CredentialOrIds) (endpoint : Option Str)
    (p p' : Option PreAuthorizedCodeFlow) (offer offer' : CredentialOffer) (url : Str) (hg : ∀ c ∈ cs, RustEntry c)
    (h : createOffer m cs endpoint none p = .ok (offer, url))
    (h' : createOffer m cs endpoint none p' = .ok (offer', url)) : p = p' := by
  obtain ⟨rfl, -⟩ := C115_url_determines m m cs cs _ _ _ _ p p' _ _ url hg hg h h'
  obtain ⟨-, -, h1, -⟩ := (C12_create_offer m cs endpoint none p).2.1 _ _ h
  obtain ⟨-, -, h2, -⟩ := (C12_create_offer m cs endpoint none p').2.1 _ _ h'
  rw [← h1, h2]

/-- An endpoint that imitates the parameter does not lead to the URL of another offer. -/
example : (createOffer Ex.metadata [.credentialId (str! "b")] (some (str! "https://w?credential_offer=%7B%7D"))
      none none).bind (fun r => .ok r.2) ≠
    (createOffer Ex.metadata [.credentialId (str! "b")] (some (str! "https://w")) none none).bind (fun r => .ok r.2) := by
  decide +kernel
example : ∃ offer url, createOffer Ex.metadata [.credentialId (str! "b"), .credential Ex.ldp] none none
    (some ⟨str! "code", some true⟩) = .ok (offer, url) := ⟨_, _, rfl⟩

/-! ### C116 -/

/-- C116. While the code that is sent is wrong, the outcome is the same for every code of the offer. -/
theorem C116_code (sent secret secret' : Str) (pin : Option UInt64) (o : CredentialOffer)
    (options : Option EvaluateAccessTokenRequestOptions) (h : secret ≠ sent) (h' : secret' ≠ sent) :
    evaluateAccessTokenRequest ⟨.preAuthorizedCodeFlow sent pin⟩ (some (withCode o secret)) options =
      evaluateAccessTokenRequest ⟨.preAuthorizedCodeFlow sent pin⟩ (some (withCode o secret')) options := by
  rcases validate_cases (.preAuthorizedCodeFlow sent pin) with hv | ⟨e, hv⟩
  · rw [evaluate_pre_eq _ _ _ _ hv, evaluate_pre_eq _ _ _ _ hv]
    have key : ∀ p : PreAuthorizedCodeFlow, preTable sent pin { p with code := secret } (expectedPin options)
        = preTable sent pin { p with code := secret' } (expectedPin options) := by
      intro p
      unfold preTable
      simp [h, h']
    obtain ⟨ci, cs, ⟨a, p⟩⟩ := o
    rcases a with _ | a <;> rcases p with _ | p <;> simp [grantTable, withCode, key]
  · rw [evaluate_invalid _ _ _ _ hv, evaluate_invalid _ _ _ _ hv]

/-- C116. While the PIN that is sent is wrong, the outcome is the same for every PIN that is configured; and if none
is sent, the configured PIN plays no part. -/
theorem C116_pin (code : Str) (sent : Option UInt64) (offer : Option CredentialOffer) (secret secret' : UInt64)
    (h : sent ≠ some secret) (h' : sent ≠ some secret') :
    evaluateAccessTokenRequest ⟨.preAuthorizedCodeFlow code sent⟩ offer (some ⟨some secret⟩) =
      evaluateAccessTokenRequest ⟨.preAuthorizedCodeFlow code sent⟩ offer (some ⟨some secret'⟩) := by
  rcases validate_cases (.preAuthorizedCodeFlow code sent) with hv | ⟨e, hv⟩
  · rw [evaluate_pre_eq _ _ _ _ hv, evaluate_pre_eq _ _ _ _ hv]
    have key : ∀ p : PreAuthorizedCodeFlow, preTable code sent p (some secret) = preTable code sent p (some secret') := by
      intro p
      unfold preTable
      cases sent with
      | none => simp
      | some n =>
        have h1 : n ≠ secret := fun e => h (congrArg some e)
        have h2 : n ≠ secret' := fun e => h' (congrArg some e)
        simp [firstRow, h1, h2]
    simp only [expectedPin]
    rcases offer with _ | ⟨ci, cs, ⟨a, p⟩⟩
    · simp [grantTable]
    · rcases a with _ | a <;> rcases p with _ | p <;> simp [grantTable, key]
  · rw [evaluate_invalid _ _ _ _ hv, evaluate_invalid _ _ _ _ hv]

example : withCode Ex.pinOffer (str! "x") ≠ withCode Ex.pinOffer (str! "y") := by decide +kernel
/-- The right code makes a difference. -/
example : evaluateAccessTokenRequest ⟨.preAuthorizedCodeFlow (str! "x") (some 7)⟩
      (some (withCode Ex.pinOffer (str! "x"))) (some ⟨some 7⟩) ≠
    evaluateAccessTokenRequest ⟨.preAuthorizedCodeFlow (str! "x") (some 7)⟩
      (some (withCode Ex.pinOffer (str! "y"))) (some ⟨some 7⟩) := by decide +kernel

/-! ### C117 -/

/-- C117. From the offer URL and the metadata text the wallet gets the offer and the credentials that the issuer
means. -/
theorem C117_offer (m : CredentialIssuerMetadata) (cs : CredentialOrIds) (endpoint : Str)
    (p : PreAuthorizedCodeFlow) (hm : DistinctIds m.credentialsSupported) (hcs : ∀ c ∈ cs, Resolvable m c)
    (hq : '?' ∉ endpoint) (hf : '#' ∉ endpoint) (hg : ∀ c ∈ cs, GoodEntry 122 c)
    (hr : RustMetadata m) (ha : Apart m) (hd : depth m.ser ≤ 127) (hn : PlainNumbers m.ser) :
    ∃ offer url v t m' fs, createOffer m cs (some endpoint) none (some p) = .ok (offer, url) ∧
      urlParams url = [(str! "credential_offer", v)] ∧ urlDecode v = some t ∧
      ReadsTo CredentialOffer.fromJson t offer ∧ offer.grants.preAuthorizedCodeFlow = some p ∧
      offer.credentialIssuer = m.credentialIssuer ∧
      ReadsTo CredentialIssuerMetadata.fromJson m.ser.print m' ∧ SameMetadata m m' ∧
      CredentialOrIds.resolveAll m' offer.credentials = .ok fs ∧ List.Forall₂ (StandsFor m) cs fs := by
  obtain ⟨⟨offer, url⟩, ho⟩ := (C12_create_offer m cs (some endpoint) none (some p)).1.2 ⟨hm, rfl, hcs⟩
  obtain ⟨hi, hc, hp, -⟩ := (C12_create_offer m cs (some endpoint) none (some p)).2.1 _ _ ho
  obtain ⟨v, hv, hdec, -⟩ := C50_from_url m cs endpoint none (some p) offer url hq hf hg ho
  obtain ⟨t, ht, hread⟩ := Option.bind_eq_some_iff.1 hdec
  obtain ⟨m', hm', -, hsame⟩ := C48_round_trip_partial m hr ha hd
  have hs := hsame hn
  obtain ⟨fs, hfs⟩ := (C11_resolve_all m cs).2.2.1 hcs
  refine ⟨offer, url, v, t, m', fs, ho, hv, ht, hread, hp, hi, hm', hs.symm, ?_, ((C11_resolve_all m cs).1 fs).1 hfs⟩
  rw [hc, (C11_resolve_all m' cs).1, hs]
  exact ((C11_resolve_all m cs).1 fs).1 hfs

/-- An offer of two credentials for a wallet with an https address. -/
example : ∃ offer url v t m' fs, createOffer Ex.metadata [.credentialId (str! "b"), .credential Ex.ldp]
      (some (str! "https://wallet/offer")) none (some ⟨str! "code", some true⟩) = .ok (offer, url) ∧
    urlParams url = [(str! "credential_offer", v)] ∧ urlDecode v = some t ∧ ReadsTo CredentialOffer.fromJson t offer ∧
    ReadsTo CredentialIssuerMetadata.fromJson Ex.metadata.ser.print m' ∧
    CredentialOrIds.resolveAll m' offer.credentials = .ok fs ∧
    List.Forall₂ (StandsFor Ex.metadata) [.credentialId (str! "b"), .credential Ex.ldp] fs := by
  obtain ⟨offer, url, v, t, m', fs, h1, h2, h3, h4, -, -, h5, -, h6, h7⟩ := C117_offer Ex.metadata
    [.credentialId (str! "b"), .credential Ex.ldp] (str! "https://wallet/offer") ⟨str! "code", some true⟩
    Ex.distinct_metadata (by
      intro c hc
      simp only [List.mem_cons, List.not_mem_nil, or_false] at hc
      rcases hc with rfl | rfl
      · exact (knownId_iff _ _).2 ⟨Ex.mdoc, by decide +kernel⟩
      · trivial)
    (by decide) (by decide)
    (by simp [GoodEntry, GoodCredential, Ex.ldp, GoodContext])
    (by simp [RustMetadata, Ex.metadata, Ex.entry, RustCredential, Ex.ldp, Ex.mdoc, RustContext])
    (by simp [Apart, Ex.metadata]) (by decide +kernel)
    (by repeat' first | exact True.intro | decide | apply And.intro)
  exact ⟨offer, url, v, t, m', fs, h1, h2, h3, h4, h5, h6, h7⟩

/-- C117. The issuer reads the wallet's token request from its text and accepts it; the wallet reads token and nonce
from the text of the answer. -/
theorem C117_token (offer : CredentialOffer) (p : PreAuthorizedCodeFlow) (pin : Option UInt64)
    (hp : offer.grants.preAuthorizedCodeFlow = some p) (hpin : pin ≠ none ↔ p.userPinRequired = some true)
    (hlen : ∀ n, pin = some n → AtMostDigits 8 n.toNat)
    (created : Time) (token nonce : Str) (type : AccessTokenType) (lifetime : UInt32)
    (expires interval : Option UInt32) (scope : Option Str) (pending : Option Bool) :
    ∃ request resp,
      ReadsTo AccessTokenRequest.fromJson (AccessTokenRequest.mk (.preAuthorizedCodeFlow p.code pin)).ser.print request ∧
      evaluateAccessTokenRequest request (some offer) (some ⟨pin⟩) = .ok () ∧
      createAccessTokenSuccessResponse created token type expires scope (some nonce) (some lifetime)
        pending interval = .ok (resp, created) ∧
      ∃ resp', ReadsTo AccessTokenSuccessResponse.fromJson resp.ser.print resp' ∧
        resp'.accessToken = token ∧ resp'.tokenType = type ∧ resp'.cNonce = some nonce ∧
        resp'.cNonceExpiresIn = some lifetime := by
  refine ⟨_, _, (C64_token_text ⟨.preAuthorizedCodeFlow p.code pin⟩
    ⟨token, type, expires, scope, some nonce, some lifetime, pending, interval⟩).1, ?_, rfl, _,
    (C64_token_text ⟨.preAuthorizedCodeFlow p.code pin⟩
    ⟨token, type, expires, scope, some nonce, some lifetime, pending, interval⟩).2, rfl, rfl, rfl, rfl⟩
  rw [C01_accept_iff]
  exact ⟨_, _, p, rfl, hp, rfl, hpin, fun n hn => ⟨Nat.le_trans (hlen n hn) (by decide), hn⟩⟩

example : ∃ request, ReadsTo AccessTokenRequest.fromJson
      (AccessTokenRequest.mk (.preAuthorizedCodeFlow (str! "c\"ode") (some 1234))).ser.print request ∧
    evaluateAccessTokenRequest request (some (withCode Ex.pinOffer (str! "c\"ode"))) (some ⟨some 1234⟩) = .ok () := by
  obtain ⟨request, -, h1, h2, -⟩ := C117_token (withCode Ex.pinOffer (str! "c\"ode")) ⟨str! "c\"ode", some true⟩
    (some 1234) rfl (by simp) (by intro n hn; cases hn; rw [atMostDigits_iff]; decide)
    0 (str! "token") (str! "nonce") .bearer 100 none none none none
  exact ⟨request, h1, h2⟩

/-- C117. The issuer reads the wallet's credential request from its text, learns the DID to resolve, and accepts the
request; the wallet reads the credential and the next nonce from the text of the answer. -/
theorem C117_credential (x : Ext) (m : CredentialIssuerMetadata) (offer : CredentialOffer)
    (hm : DistinctIds m.credentialsSupported)
    (h : ProofJwtHeader) (b : ProofJwtBody) (sig : Str) (client : Option Str) (nonce : Str)
    (format : CredentialFormatProfile) (doc : x.Doc) (did : Str) (key : Bytes)
    (created now later : Time) (lifetime : UInt32)
    (ht : h.typ = proofTyp) (haud : b.audience = m.credentialIssuer) (hn : b.nonce = nonce) (hi : b.issuer = client)
    (htimes : TimesOk x b) (hsig : NoDot sig) (hk : KeyResolved x h (some doc) did key)
    (hnow : now ≤ created + lifetime.toNat * 1000000000) (hmax : created + lifetime.toNat * 1000000000 ≤ Time.max)
    (hf : GoodCredential 124 format) (c : CredentialFormatProfile) (hc : GoodCredential 122 c) (next : Option CNonce) :
    ∃ request result resp,
      ReadsTo CredentialRequest.fromJson
        (CredentialRequest.mk format (some ⟨str! "jwt", compact x h b (some sig)⟩)).ser.print request ∧
      preEvaluateCredentialRequest x request = .ok ⟨some did⟩ ∧
      evaluateCredentialRequest x now m request (some offer) none (some doc)
        (some ⟨some ⟨lifetime, nonce, created⟩, client⟩) = .ok result ∧
      result.subjectId = some did ∧ result.credential = format ∧
      createCredentialSuccessResponse x later request (some (.credential c)) next = .ok (resp, later) ∧
      ∃ resp', ReadsTo CredentialSuccessResponse.fromJson resp.ser.print resp' ∧ Holds resp' c ∧
        resp'.format = formatName format ∧ resp'.cNonce = next.map (·.cNonce) ∧
        resp'.cNonceExpiresIn = next.bind (·.cNonceExpiresIn) := by
  obtain ⟨s, hs⟩ := (extractSignature_ok x ⟨h, b, some sig⟩).2 (.inl (by simp))
  obtain ⟨msg, hmsg⟩ := signable_ok x ⟨h, b, some sig⟩
  obtain ⟨hpre, resp, hresp, -, -, -⟩ := C50_answer x h b sig format doc did key later ht htimes hsig hk c next
  have hresp' := success_eq_ok.1 hresp
  obtain ⟨-, -, hfmt, hcn, hce, -, e, he, hcred⟩ := hresp'
  have hgood : ∀ f, resp.credential = some (.credentialFormatProfile f) → GoodCredential 122 f := by
    intro f hf'
    rw [hcred] at hf'
    cases hf'
    cases c <;> cases he
    exact hc
  refine ⟨_, _, resp, C64_request_good _ hf, hpre, (evaluate_ok_iff ..).2 ⟨hm, rfl, offer, ⟨h, b, some sig⟩, did, key,
    s, msg, rfl, ⟨⟨_, rfl, fromStr_compact x h b (some sig) htimes (by simpa using hsig)⟩, ?_,
      ⟨_, rfl, hn, hnow, hmax⟩, haud, fun _ => hi⟩, hk, hs, hmsg, rfl⟩, rfl, rfl, hresp,
    resp, C64_response_good _ hgood, ?_, hfmt, hcn, hce⟩
  · rw [← C19_typ ⟨h, b, some sig⟩, C19_typ, ht, ← lowercase_eq_iff]
    decide +kernel
  · obtain ⟨h1, h2⟩ := C37_lossless x later _ c next resp later hresp
    by_cases hl : ∃ ctx types cs order, c = .ldpVc ctx types cs order
    · exact .inl (h1 hl)
    · obtain ⟨t, bs, ht1, -, ht2, ht3⟩ := h2 (fun ctx types cs order e => hl ⟨ctx, types, cs, order, e⟩) (GoodCredential.rust hc)
      obtain ⟨j, hj1, hj2⟩ := Option.bind_eq_some_iff.1 ht3
      obtain ⟨t', ht4, ht5⟩ := Option.bind_eq_some_iff.1 hj1
      exact .inr ⟨t, bs, t', ht1, ht2, ht4, Option.bind_eq_some_iff.2 ⟨j, ht5, hj2⟩⟩

/-- The example proof, answered with an encoded credential and a new nonce. -/
example : ∃ request result, ReadsTo CredentialRequest.fromJson Ex.request.ser.print request ∧
    evaluateCredentialRequest Ex.ext 1000 Ex.metadata request (some Ex.pinOffer) none (some Ex.didDoc)
      Ex.options = .ok result ∧
    ∃ resp t resp', createCredentialSuccessResponse Ex.ext 2000 request (some (.credential Ex.mdoc))
        (some ⟨str! "next", some 60⟩) = .ok (resp, t) ∧
      ReadsTo CredentialSuccessResponse.fromJson resp.ser.print resp' ∧ Holds resp' Ex.mdoc ∧
      resp'.cNonce = some (str! "next") := by
  obtain ⟨request, result, resp, h1, -, h2, -, -, h3, resp', h4, h5, -, h6, -⟩ := C117_credential Ex.ext Ex.metadata
    Ex.pinOffer Ex.distinct_metadata Ex.header Ex.plainBody (str! "c2ln") none (str! "nonce") Ex.mdoc Ex.didDoc _ _
    0 1000 2000 100 rfl rfl rfl rfl Ex.timesOk_plainBody (by simp [NoDot]) Ex.keyResolved (by decide) (by decide)
    (by simp [GoodCredential, Ex.mdoc]) Ex.mdoc (by simp [GoodCredential, Ex.mdoc]) (some ⟨str! "next", some 60⟩)
  exact ⟨request, result, h1, h2, resp, 2000, resp', h3, h4, h5, h6⟩

end Oid4vci
