import Verif.Props.JwtText
import Verif.Props.Commits
import Verif.Props.Flow
import Verif.Lemmas.Insert
import Verif.Spec.History

/-! C139: an accepted proof can be altered without anyone who checks its signature noticing. -/

namespace Oid4vci

open Spec CredentialIssuer

/-- C139, as it should hold: two accepted requests of which the message and the signature to be checked
are the same carry the same proof. -/
def C139_statement : Prop := ∀ (x : Ext) (c d : Call x) (resp resp' : CredentialIssuerEvaluateRequestResponse)
    (p q : ProofOfPossession),
  c.Gives resp → d.Gives resp' → resp.proofOfPossession = some p → resp'.proofOfPossession = some q →
  p.message = q.message → p.signature = q.signature → c.proofText = d.proofText

section

variable (x : Ext) (now : Time) (m : CredentialIssuerMetadata) (format : CredentialFormatProfile)
  (type type' : Str) (offer : Option CredentialOffer) (asm : Option AuthorizationServerMetadata)
  (doc : Option x.Doc) (options : Option EvaluateCredentialRequestOptions)

/-- Two texts of the same JWT. -/
theorem C139_same {j : ProofJwt} {s t : Str} (hs : JwtText x j s) (ht : JwtText x j t) :
    evaluateCredentialRequest x now m ⟨format, some ⟨type, s⟩⟩ offer asm doc options =
      evaluateCredentialRequest x now m ⟨format, some ⟨type', t⟩⟩ offer asm doc options := by
  unfold evaluateCredentialRequest
  simp only [(C67_jwt ..).2 hs, (C67_jwt ..).2 ht]

/-- C139. Anything may be appended after the signature, behind a dot. -/
theorem C139_appended {j : ProofJwt} {s : Str} (hs : JwtText x j s) (hj : j.signature ≠ none) (t : Str) :
    JwtText x j (s ++ '.' :: t) ∧
    evaluateCredentialRequest x now m ⟨format, some ⟨type, s ++ '.' :: t⟩⟩ offer asm doc options =
      evaluateCredentialRequest x now m ⟨format, some ⟨type, s⟩⟩ offer asm doc options := by
  have h : JwtText x j (s ++ '.' :: t) :=
    (C67_jwt ..).1 (C18_trailing_segments_ignored x s t j ((C67_jwt ..).2 hs) hj)
  exact ⟨h, C139_same x now m format type type offer asm doc options h hs⟩

/-- C139. A claim of any other name and value may be put before the claims. -/
theorem C139_claim {j : ProofJwt} {header segment segment' : Str} {rest : List Str} {b b' : Bytes}
    {kvs : List (Str × Json)} {k u e : Str}
    (hs : JwtText x j (dotted (header :: segment :: rest)))
    (hnd : ∀ p ∈ header :: segment :: segment' :: rest, NoDot p)
    (h : IsBase64url b segment) (h' : IsBase64url b' segment')
    (hu : LooseObject claimNames kvs ('{' :: u)) (hb : Octets b ('{' :: u))
    (hk : k ∉ claimNames) (he : LooseMember claimNames k .null e)
    (hb' : Octets b' ('{' :: (e ++ ',' :: u))) :
    JwtText x j (dotted (header :: segment' :: rest)) ∧
    evaluateCredentialRequest x now m ⟨format, some ⟨type, dotted (header :: segment' :: rest)⟩⟩ offer asm
        doc options =
      evaluateCredentialRequest x now m ⟨format, some ⟨type, dotted (header :: segment :: rest)⟩⟩ offer asm
        doc options := by
  have key : JwtText x j (dotted (header :: segment' :: rest)) := by
    obtain ⟨hh, bs, r, hnd', hd, g1, g2, g3⟩ := hs
    have n1 : splitOn '.' (dotted (header :: segment :: rest)) = header :: segment :: rest :=
      dotted_iff.2 ⟨by simp, fun p hp => hnd p (by
        simp only [List.mem_cons] at hp ⊢; tauto), rfl⟩
    have n2 := dotted_iff.2 ⟨by simp, hnd', hd⟩
    rw [n1] at n2
    obtain ⟨rfl, rfl, rfl⟩ : header = hh ∧ segment = bs ∧ rest = r := by simpa using n2
    refine ⟨header, segment', rest, fun p hp => hnd p (by
      simp only [List.mem_cons] at hp ⊢; tauto), rfl, g1, ?_, g3⟩
    rw [← bodySegment_iff] at g2
    obtain ⟨b0, e1, e2⟩ := g2
    rw [(C44_base64url_rfc4648 _ _).1.2 h] at e1
    cases e1
    have l : LooseText claimNames (.obj kvs) b := .object kvs [] _ [] b (by simp [Ws]) hu (by simp [Ws]) (by simpa using hb)
    rw [ProofJwtBody.fromSlice_of_loose x l] at e2
    refine ⟨b', .obj ((k, .null) :: kvs), h', ?_, (C67_body ..).1 ?_⟩
    · refine .object _ [] _ [] b' (by simp [Ws]) ?_ (by simp [Ws]) (by simpa using hb')
      cases hu with
      | empty w hw => exact absurd (show none = some j.body from e2) (by simp)
      | members k1 v1 kvs1 w s1 t1 hw h1 h2 =>
        have := LooseObject.members k .null _ [] e _ (by simp [Ws]) he (.more k1 v1 kvs1 [] w s1 t1 (by simp [Ws]) hw h1 h2)
        simpa using this
    · rw [← e2]
      have q := struct_front (v := .null) (kvs := kvs) hk
      unfold claimNames at q
      unfold ProofJwtBody.de
      rw [q]
  exact ⟨key, C139_same x now m format type type offer asm doc options key hs⟩

end

/-- C139, pre-evaluation: of a proof of type JWT only what is read of it matters. -/
theorem C139_pre (x : Ext) (format : CredentialFormatProfile) (type : Str) {j : ProofJwt} {s t : Str}
    (hs : JwtText x j s) (ht : JwtText x j t) :
    preEvaluateCredentialRequest x ⟨format, some ⟨type, s⟩⟩ =
      preEvaluateCredentialRequest x ⟨format, some ⟨type, t⟩⟩ := by
  unfold preEvaluateCredentialRequest CredentialRequest.validate CredentialRequestProof.validate
  simp only [(C67_jwt ..).2 hs, (C67_jwt ..).2 ht]

/-- C139, a claim `a` before those of the example. -/
example : ∃ segment', JwtText Ex.ext ⟨Ex.header, Ex.plainBody, some (str! "c2ln")⟩
    (dotted [base64urlEncode (utf8Encode Ex.header.ser.print), segment', str! "c2ln"]) ∧
    segment' ≠ base64urlEncode (utf8Encode (Ex.plainBody.ser Ex.ext).print) := by
  let u := (Ex.plainBody.ser Ex.ext).print.tail
  have hp : (Ex.plainBody.ser Ex.ext).print = '{' :: u := by decide +kernel
  have hn : Json.Narrow u := by unfold Json.Narrow; decide +kernel
  have hl : ∃ kvs, Json.looseObject claimNames u = some (kvs, []) := by
    refine ⟨[(str! "aud", .str (str! "https://issuer")), (str! "sub", .str (str! "sub")),
      (str! "iat", .str (str! "1000")), (str! "nonce", .str (str! "nonce"))], ?_⟩
    decide +kernel
  obtain ⟨kvs, hl⟩ := hl
  obtain ⟨t, ht, e⟩ := (Json.looseObject_iff hn).1 hl
  rw [List.append_nil] at e
  refine ⟨base64urlEncode (utf8Encode ('{' :: (str! "\"a\":null" ++ ',' :: u))), ?_, by decide +kernel⟩
  have hj := (C67_jwt ..).1 Ex.fromStr_request
  exact (C139_claim Ex.ext 0 Ex.metadata Ex.mdoc (str! "jwt") none none none none
    (segment := base64urlEncode (utf8Encode (Ex.plainBody.ser Ex.ext).print))
    (segment' := base64urlEncode (utf8Encode ('{' :: (str! "\"a\":null" ++ ',' :: u))))
    (u := u) (k := str! "a") (e := str! "\"a\":null") (kvs := kvs) (rest := [str! "c2ln"]) hj
    (by
      intro p hp
      simp only [List.mem_cons, List.not_mem_nil, or_false] at hp
      rcases hp with rfl | rfl | rfl | rfl
      · exact noDot_encode _
      · exact noDot_encode _
      · exact noDot_encode _
      · simp [NoDot])
    (isBase64url_encode _) (isBase64url_encode _) (by rw [e]; exact ht) (by unfold Octets; decide +kernel)
    (by decide)
    (.other (str! "a") (str! "\"a\"") (str! "\"a\"") [] [] (str! "null") (by decide)
      ⟨str! "a", .unescaped _ _ _ (by decide) (by decide) (by decide) .nil, rfl⟩
      (Json.utf8Text_iff.2 (by decide +kernel)) (by simp [Ws]) (by simp [Ws]) .null)
    (by unfold Octets; decide +kernel)).1

/-- C139 does not hold. -/
theorem C139_refuted : ¬ C139_statement := by
  intro h
  obtain ⟨resp, he⟩ := Ex.evaluates
  have hj := (C67_jwt ..).1 Ex.fromStr_request
  obtain ⟨-, he'⟩ := C139_appended Ex.ext 1000 Ex.metadata Ex.mdoc (str! "jwt") (some Ex.pinOffer) none
    (some Ex.didDoc) Ex.options hj (by simp) (str! "x")
  obtain ⟨-, -, o, jwt, did, key, s, msg, ho, -, -, -, -, hresp⟩ := (evaluate_ok_iff ..).1 he
  have hp : resp.proofOfPossession = some ⟨jwt.header.alg, key, msg, s⟩ := by rw [hresp]
  have := h Ex.ext ⟨1000, Ex.metadata, Ex.request, some Ex.pinOffer, none, some Ex.didDoc, Ex.options⟩
    ⟨1000, Ex.metadata, ⟨Ex.mdoc, some ⟨str! "jwt", compact Ex.ext Ex.header Ex.plainBody (some (str! "c2ln")) ++ str! ".x"⟩⟩,
      some Ex.pinOffer, none, some Ex.didDoc, Ex.options⟩ resp resp _ _ he (he'.trans he) hp hp rfl rfl
  have := congrArg (Option.map List.length) this
  simp [Call.proofText, Ex.request] at this

/-- C139, what does hold (the two calls of `C139_refuted` are a case): two accepted requests with the same message carry JWTs with the same header, and
with the same claims if they are signed. Missing: the text itself, and unsigned JWTs with exactly one dot in
their texts. -/
theorem C139_content_partial (x : Ext) (c d : Call x) (resp resp' : CredentialIssuerEvaluateRequestResponse)
    (p q : ProofOfPossession) (hc : c.Gives resp) (hd : d.Gives resp')
    (hp : resp.proofOfPossession = some p) (hq : resp'.proofOfPossession = some q)
    (hm : p.message = q.message) : ∃ s t i j, c.proofText = some s ∧ d.proofText = some t ∧ JwtText x i s ∧
      JwtText x j t ∧ (TimesOk x i.body → TimesOk x j.body →
        i.header = j.header ∧ (i.signature ≠ none → j.signature ≠ none → i.body = j.body)) := by
  obtain ⟨-, -, o, i, did, key, s, msg, ho, ⟨⟨a, ha, hi⟩, -⟩, -, -, hmsg, rfl⟩ := (evaluate_ok_iff ..).1 hc
  obtain ⟨-, -, o', j, did', key', s', msg', ho', ⟨⟨a', ha', hj⟩, -⟩, -, -, hmsg', rfl⟩ := (evaluate_ok_iff ..).1 hd
  cases hp; cases hq
  cases hm
  refine ⟨a.jwt, a'.jwt, i, j, by simp [Call.proofText, ha], by simp [Call.proofText, ha'], (C67_jwt ..).1 hi,
    (C67_jwt ..).1 hj, fun ti tj => ?_⟩
  have e := hmsg.trans hmsg'.symm
  exact ⟨(C32_same_partial x i j ti tj e).1, fun n n' => (C32_commits_partial x i j ti tj (.inl n) (.inl n') e).2⟩

end Oid4vci
