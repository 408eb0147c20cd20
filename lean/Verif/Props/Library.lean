import Verif.Spec.Library
import Verif.Props.Evaluate
import Verif.Props.Instant
import Verif.Props.JwtText
import Verif.Props.Method

/-! C131: which request texts are accepted, with all externals by their models. -/

namespace Oid4vci

open Spec CredentialIssuer

section
variable (L : LibraryRules)

theorem library_instant (v : Json) (t : Time) : IsInstant (library L) v t ↔ InstantDoc v t := by
  unfold IsInstant InstantDoc
  refine exists_congr fun s => and_congr_right fun _ => ?_
  exact C74_exact s t

theorem library_jwt (s : Str) (j : ProofJwt) : ProofJwt.fromStr (library L) s = .ok j ↔ WireJwt j s := by
  rw [C67_jwt]
  have hi : IsInstant (library L) = InstantDoc := by
    funext v t; exact propext (library_instant L v t)
  unfold JwtText BodySegment BodyDoc WireJwt WireBody
  rw [hi]

theorem dot_digit (n : Nat) : ('.' = Chrono.digit n) = False := by
  have : ∀ k < 10, '.' ≠ Char.ofNat (48 + k) := by decide
  exact eq_false (this (n % 10) (Nat.mod_lt _ (by decide)))

theorem dot_fixed (w n : Nat) : ('.' ∈ Chrono.fixed w n) = False := by
  refine eq_false ?_
  induction w generalizing n with
  | zero => simp [Chrono.fixed]
  | succ w ih => simp [Chrono.fixed, ih, dot_digit]

theorem dot_showYear (y : Int) : ('.' ∈ Chrono.showYear y) = False := by
  refine eq_false ?_
  unfold Chrono.showYear
  have : '.' ∉ Json.natDigits y.natAbs := List.count_eq_zero.1 (count_natDigits _)
  split_ifs <;> simp [dot_fixed, this]

theorem whole_second (t : Int) : (t % 1000000000).toNat = 0 ↔ t % 1000000000 = 0 := by omega

theorem noDot_showTime (t : Time) : NoDot (Chrono.showTime t) ↔ t % 1000000000 = 0 := by
  refine Iff.trans ?_ (whole_second t)
  unfold NoDot Chrono.showTime
  simp only [List.mem_append, List.mem_cons, dot_fixed, dot_showYear, false_or]
  generalize (t % 1000000000).toNat = n
  unfold Chrono.showFraction
  split_ifs with h1 h2 h3 <;> simp [h1]

theorem library_dotless (j : ProofJwt) : HeaderDotFree j.header ∧ BodyDotFree (library L) j.body ↔ Dotless j := by
  unfold BodyDotFree Dotless
  have h : ∀ t, NoDot ((library L).showTime t) ↔ t % 1000000000 = 0 := noDot_showTime
  simp only [h]
  tauto

/-- C131. Which texts of credential requests are accepted, and for whom: the text describes a request, its proof is the
text of a JWT of the right type for the expected nonce, the issuer and the client, which names a key of the given document;
the key, the algorithm of the header, the DID in front of the key id and the requested credential are reported. -/
theorem C131_accepted (now : Time) (m : CredentialIssuerMetadata) (text : Str) (offer : CredentialOffer)
    (d : Document MethodMap) (options : Option EvaluateCredentialRequestOptions)
    (hec : ∀ crv x y d, L.jwk.inferred (.ec crv x y d) ≠ some SsiAlg.edDSA) (did : Str) (key : Bytes)
    (alg : ProofJwtAlgorithm) (credential : CredentialFormatProfile) :
    (∃ r resp pop, CredentialRequest.fromJson text = some r ∧
      evaluateCredentialRequest (library L) now m r (some offer) none (some d) options = .ok resp ∧
      resp.subjectId = some did ∧ resp.credential = credential ∧ resp.proofOfPossession = some pop ∧
      pop.publicKey = key ∧ pop.algorithm = alg) ↔
    DistinctIds m.credentialsSupported ∧
      ∃ r jwt, WireAccepted L now m text offer d options did key r jwt ∧ jwt.header.alg = alg ∧ r.format = credential := by
  constructor
  · rintro ⟨r, resp, pop, hr, he, h1, h2, h3, h4, h5⟩
    obtain ⟨hm, -, o, j, did', key', sig, msg, ho, ⟨⟨p, hp, hj⟩, ht, hn, ha, hi⟩, ⟨kid, url, d', vm, jwk, k1, k2, rfl, k4, k5, k6, k7⟩,
      hs, -, rfl⟩ := (evaluate_ok_iff ..).1 he
    cases ho; cases h1; cases h3; cases k4
    obtain ⟨e1, e2⟩ := Did.parse_did k2
    obtain ⟨⟨a, k⟩, g1, g2⟩ := except_bind_ok.1 (show MethodMap.getJwk L.jwk L.method vm = .ok jwk from k6)
    cases g2
    have f1 := (Document.select_method L.select d k2 vm).1 k5
    have f2 := (C130_method L.method vm a k).1 g1
    have f3 := (usedBytes_iff L.jwk hec a k key').1 k7
    subst h4 h5 h2
    exact ⟨hm, r, j, ⟨(C68_texts text).2.2.2.1 r |>.1 hr, ⟨p, hp, (library_jwt L _ _).1 hj⟩, ht, hn, ha, hi,
      ⟨kid, vm, a, k, k1, e1, e2, f1, f2, f3⟩,
      ((extractSignature_ok (library L) j).1 ⟨sig, hs⟩).imp_right (mt (library_dotless L j).2)⟩, rfl, rfl⟩
  · rintro ⟨hm, r, j, hw, rfl, rfl⟩
    obtain ⟨p, hp, hj⟩ := hw.proof
    obtain ⟨kid, vm, a, k, k1, k2, k3, k4, k5, k6⟩ := hw.key
    obtain ⟨u, hu⟩ : ∃ u, Did.parse kid = .ok u := by
      cases hq : Did.parse kid with
      | ok u => exact ⟨u, rfl⟩
      | error e => exact absurd k2 ((Did.parse_error _ _).1 hq).1
    have hdid : u.did = did := upToDelimiter_unique (Did.parse_did hu).2 k3
    have hsel : (library L).select d u = .verificationMethod vm := (Document.select_method L.select d hu vm).2 k4
    have hget : (library L).getJwk vm = .ok (L.jwk.shown a k) :=
      except_bind_ok.2 ⟨(a, k), (C130_method L.method vm a k).2 k5, rfl⟩
    obtain ⟨sig, hsig⟩ := (extractSignature_ok (library L) j).2 (hw.signature.imp_right (mt (library_dotless L j).1))
    obtain ⟨msg, hmsg⟩ := signable_ok (library L) j
    exact ⟨r, _, _, (C68_texts text).2.2.2.1 r |>.2 hw.request, (evaluate_ok_iff ..).2 ⟨hm, rfl, offer, j, did, key, sig, msg, rfl,
      ⟨⟨p, hp, (library_jwt L _ _).2 hj⟩, hw.typ, hw.nonce, hw.aud, hw.iss⟩,
      ⟨kid, u, d, vm, _, k1, hu, hdid, rfl, hsel, hget, (usedBytes_iff L.jwk hec a k key).2 k6⟩, hsig, hmsg, rfl⟩, rfl, rfl, rfl,
      rfl, rfl⟩

/-- C131. The externals by their models are an instance of each of the models, so that the theorems about chrono
(C56, C74), base64 (C114), DID URLs (C111), DID documents (C126), JWKs (C128) and the messages about JSON (C122, C124)
hold of them together. -/
theorem C131_instance : withChrono (library L) = library L ∧ withBase64 (library L) = library L ∧
    withDids (library L) = library L ∧ withDocuments L.select (library L) = library L ∧
    withJwks L.jwk (library L) = library L ∧ withJson (library L) (withTimes L.texts) = library L :=
  ⟨rfl, rfl, rfl, rfl, rfl, rfl⟩

theorem toStr_of_showTime {x x' : Ext} (h : x.showTime = x'.showTime) (j : ProofJwt) : j.toStr x = j.toStr x' := by
  have : serTime x = serTime x' := by funext t; unfold serTime; rw [h]
  unfold ProofJwt.toStr ProofJwtBody.ser
  rw [this]

theorem library_showTime : (library L).showTime = Chrono.showTime := rfl

/-- C131. Of what is left open about the other crates, only the search in documents and the meaning of key material bear on
which texts are accepted; not the texts of messages, nor the names and readings of JWKs. -/
theorem C131_independent (L' : LibraryRules) (hs : L.select = L'.select) (hm : L.method = L'.method)
    (hec : ∀ crv x y d, L.jwk.inferred (.ec crv x y d) ≠ some SsiAlg.edDSA)
    (hec' : ∀ crv x y d, L'.jwk.inferred (.ec crv x y d) ≠ some SsiAlg.edDSA)
    (now : Time) (m : CredentialIssuerMetadata) (r : CredentialRequest) (offer : Option CredentialOffer)
    (asm : Option AuthorizationServerMetadata) (doc : Option (Document MethodMap))
    (options : Option EvaluateCredentialRequestOptions) (resp : CredentialIssuerEvaluateRequestResponse) :
    evaluateCredentialRequest (library L) now m r offer asm doc options = .ok resp ↔
      evaluateCredentialRequest (library L') now m r offer asm doc options = .ok resp := by
  have key : ∀ {L L' : LibraryRules}, L.select = L'.select → L.method = L'.method →
      (∀ crv x y d, L.jwk.inferred (.ec crv x y d) ≠ some SsiAlg.edDSA) →
      (∀ crv x y d, L'.jwk.inferred (.ec crv x y d) ≠ some SsiAlg.edDSA) →
      evaluateCredentialRequest (library L) now m r offer asm doc options = .ok resp →
      evaluateCredentialRequest (library L') now m r offer asm doc options = .ok resp := by
    intro L L' hs hm hec hec' h
    obtain ⟨h1, h2, o, j, did, key, sig, msg, ho, ⟨⟨p, hp, hj⟩, ht, hn, ha, hi⟩, ⟨kid, url, d, vm, jwk, k1, k2, k3, k4, k5, k6, k7⟩,
      hsig, hmsg, hr⟩ := (evaluate_ok_iff ..).1 h
    obtain ⟨⟨a, k⟩, g1, g2⟩ := except_bind_ok.1 (show MethodMap.getJwk L.jwk L.method vm = .ok jwk from k6)
    cases g2
    have hstr : j.toStr (library L) = j.toStr (library L') :=
      toStr_of_showTime ((library_showTime L).trans (library_showTime L').symm) j
    have hj' : ProofJwt.fromStr (library L') p.jwt = .ok j := (library_jwt L' _ _).2 ((library_jwt L _ _).1 hj)
    have hu : (library L').didUrl kid = .ok url := (show Did.parse kid = .ok url from k2)
    have hsel : (library L').select d url = .verificationMethod vm :=
      (show Document.select L'.select d url = .verificationMethod vm from
        hs ▸ (show Document.select L.select d url = .verificationMethod vm from k5))
    have hget : (library L').getJwk vm = .ok (L'.jwk.shown a k) :=
      (show MethodMap.getJwk L'.jwk L'.method vm = _ from except_bind_ok.2 ⟨(a, k), hm ▸ g1, rfl⟩)
    have hsig' : j.extractSignature (library L') = .ok sig := by
      unfold ProofJwt.extractSignature at hsig ⊢
      rw [← hstr]; exact hsig
    have hmsg' : j.toSignableMessage (library L') = .ok msg := by
      unfold ProofJwt.toSignableMessage at hmsg ⊢
      rw [← hstr]; exact hmsg
    exact (evaluate_ok_iff ..).2 ⟨h1, h2, o, j, did, key, sig, msg, ho, ⟨⟨p, hp, hj'⟩, ht, hn, ha, hi⟩,
      ⟨kid, url, d, vm, L'.jwk.shown a k, k1, hu, k3, k4, hsel, hget,
        (usedBytes_iff L'.jwk hec' a k key).2 ((usedBytes_iff L.jwk hec a k key).1 k7)⟩, hsig', hmsg', hr⟩
  exact ⟨key hs hm hec hec', key hs.symm hm.symm hec' hec⟩

end

/-! ### Example -/

namespace Ex

/-- Rules for the examples. -/
def libraryRules : LibraryRules := ⟨⟨true, true⟩, jwkRules, methodRules, ⟨id, id, str! "a date-time"⟩, true⟩

/-- A document with one key. -/
def keyDocument : Document MethodMap := methodDocument (methodMap none (some (str! "2g")) [])

/-- The text of a request with this proof. -/
def requestWith (jwt : Str) : Str :=
  str! "{\"format\":\"ldp_vc\",\"proof\":{\"proof_type\":\"jwt\",\"jwt\":\"" ++ jwt ++
    str! "\"},\"types\":[\"T\"],\"@context\":[],\"credentialSubject\":{}}"

/-- `{ "kid":"did:example:h#k", "alg":"EdDSA","typ":"OpenID4VCI-proof+jwt"}`, `{"nonce":"nonce","aud":"https://issuer","iat":"2018-09-14T21:19:10+00:00","extra":[1.5]}` and a signature. -/
def wireJwt : Str := str! "eyAia2lkIjoiZGlkOmV4YW1wbGU6aCNrIiwgImFsZyI6IkVkRFNBIiwidHlwIjoiT3BlbklENFZDSS1wcm9vZitqd3QifQ.eyJub25jZSI6Im5vbmNlIiwiYXVkIjoiaHR0cHM6Ly9pc3N1ZXIiLCJpYXQiOiIyMDE4LTA5LTE0VDIxOjE5OjEwKzAwOjAwIiwiZXh0cmEiOlsxLjVdfQ.c2ln"

/-- The same without a signature. -/
def unsignedJwt : Str := str! "eyAia2lkIjoiZGlkOmV4YW1wbGU6aCNrIiwgImFsZyI6IkVkRFNBIiwidHlwIjoiT3BlbklENFZDSS1wcm9vZitqd3QifQ.eyJub25jZSI6Im5vbmNlIiwiYXVkIjoiaHR0cHM6Ly9pc3N1ZXIiLCJpYXQiOiIyMDE4LTA5LTE0VDIxOjE5OjEwKzAwOjAwIiwiZXh0cmEiOlsxLjVdfQ"

/-- The same at another instant, half a second later. -/
def laterJwt : Str := str! "eyAia2lkIjoiZGlkOmV4YW1wbGU6aCNrIiwgImFsZyI6IkVkRFNBIiwidHlwIjoiT3BlbklENFZDSS1wcm9vZitqd3QifQ.eyJub25jZSI6Im5vbmNlIiwiYXVkIjoiaHR0cHM6Ly9pc3N1ZXIiLCJpYXQiOiIyMDE4LTA5LTE0VDIxOjE5OjEwLjUrMDA6MDAiLCJleHRyYSI6WzEuNV19"

/-- What evaluation says about the request with this proof: the DID and the key. -/
def evaluated (jwt : Str) : Option (Option Str × Option Bytes) :=
  match CredentialRequest.fromJson (requestWith jwt) with
  | none => none
  | some r =>
    match evaluateCredentialRequest (library libraryRules) 1000 metadata r (some pinOffer) none (some keyDocument) options with
    | .ok resp => some (resp.subjectId, resp.proofOfPossession.map (·.publicKey))
    | _ => none

end Ex

/-- C131_accepted: a signed proof is accepted; unsigned ones are not, except that this one becomes acceptable with half a
second, which is written with a dot. -/
example : Ex.evaluated Ex.wireJwt = some (some (str! "did:example:h"), some [97]) ∧ Ex.evaluated Ex.unsignedJwt = none ∧
    Ex.evaluated Ex.laterJwt = some (some (str! "did:example:h"), some [97]) := by decide +kernel

/-- C131_accepted, for the first of them. -/
example : ∃ r jwt, WireAccepted Ex.libraryRules 1000 Ex.metadata (Ex.requestWith Ex.wireJwt) Ex.pinOffer Ex.keyDocument
    Ex.options (str! "did:example:h") [97] r jwt := by
  have h : Ex.evaluated Ex.wireJwt = some (some (str! "did:example:h"), some [97]) := by decide +kernel
  unfold Ex.evaluated at h
  split at h
  · cases h
  · rename_i r hr
    split at h
    · rename_i resp he
      simp only [Option.some.injEq, Prod.mk.injEq, Option.map_eq_some_iff] at h
      obtain ⟨h1, pop, h2, h3⟩ := h
      obtain ⟨-, r', jwt, hw, -⟩ := (C131_accepted Ex.libraryRules 1000 Ex.metadata _ Ex.pinOffer Ex.keyDocument Ex.options
        Ex.jwkRules_ec _ _ pop.algorithm resp.credential).1 ⟨r, resp, pop, hr, he, h1, rfl, h2, h3, rfl⟩
      exact ⟨r', jwt, hw⟩
    · cases h

/-- Rules with other messages and without names of algorithms. -/
def Ex.otherRules : LibraryRules :=
  ⟨⟨true, true⟩, ⟨fun _ => none, fun _ => none, fun _ => none, id⟩, Ex.methodRules, ⟨fun _ => [], fun _ => [], []⟩, false⟩

/-- C131_independent. -/
example (r : CredentialRequest) (resp : CredentialIssuerEvaluateRequestResponse) :
    evaluateCredentialRequest (library Ex.libraryRules) 1000 Ex.metadata r (some Ex.pinOffer) none (some Ex.keyDocument)
      Ex.options = .ok resp ↔
    evaluateCredentialRequest (library Ex.otherRules) 1000 Ex.metadata r (some Ex.pinOffer) none (some Ex.keyDocument)
      Ex.options = .ok resp :=
  C131_independent Ex.libraryRules Ex.otherRules rfl rfl Ex.jwkRules_ec (by simp [Ex.otherRules]) 1000 Ex.metadata r
    (some Ex.pinOffer) none (some Ex.keyDocument) Ex.options resp

end Oid4vci
