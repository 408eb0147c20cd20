import Verif.Lemmas.Spaces

/-!
C145. White space between the tokens of a JSON text means nothing: texts of the JSON grammar that differ in it only are
read as the same document, or refused both.

Both texts have to be JSON: white space inside of a token breaks it (`12` and `1 2`).
-/

namespace Oid4vci

open Spec Json

/-- C145. What is seen of a text stays the same without the white space. -/
theorem C145_dense {σ : Shape} {s : Str} (h : Grammatical s) : Json.see σ (dense false s) = Json.see σ s := see_dense h

/-- C145. All texts that differ in white space only look the same. -/
theorem C145_seen {σ : Shape} {s s' : Str} (h : Grammatical s) (h' : Grammatical s') (e : SpacedAlike s s') :
    Json.see σ s = Json.see σ s' := by
  rw [← see_dense h, ← see_dense h', e]

/-- C145. They are the same document. -/
theorem C145_parse {s s' : Str} (h : Grammatical s) (h' : Grammatical s') (e : SpacedAlike s s') :
    Json.parse s = Json.parse s' := by
  rw [← see_any, ← see_any, C145_seen h h' e]

/-- C145. Offers, requests, responses, metadata, settings and nonces are read alike from them. -/
theorem C145_read (x : Ext) {s s' : Str} (h : Grammatical s) (h' : Grammatical s') (e : SpacedAlike s s') :
    CredentialOffer.fromJson s = CredentialOffer.fromJson s' ∧
    AccessTokenRequest.fromJson s = AccessTokenRequest.fromJson s' ∧
    AccessTokenSuccessResponse.fromJson s = AccessTokenSuccessResponse.fromJson s' ∧
    CredentialRequest.fromJson s = CredentialRequest.fromJson s' ∧
    CredentialSuccessResponse.fromJson s = CredentialSuccessResponse.fromJson s' ∧
    CredentialIssuerMetadata.fromJson s = CredentialIssuerMetadata.fromJson s' ∧
    CredentialFormatProfile.fromJson s = CredentialFormatProfile.fromJson s' ∧
    EvaluateCredentialRequestOptions.fromJson x s = EvaluateCredentialRequestOptions.fromJson x s' ∧
    EvaluateAccessTokenRequestOptions.fromJson s = EvaluateAccessTokenRequestOptions.fromJson s' ∧
    CNonce.fromJson s = CNonce.fromJson s' ∧
    AuthorizationServerMetadata.fromJson s = AuthorizationServerMetadata.fromJson s' ∧
    ProofJwt.fromJson x s = ProofJwt.fromJson x s' := by
  refine ⟨?_, ?_, ?_, ?_, ?_, ?_, ?_, ?_, ?_, ?_, ?_, ?_⟩
  case refine_7 => exact congrArg (·.bind (CredentialFormatProfile.de false)) (C145_parse h h' e)
  all_goals simp only [CredentialOffer.fromJson, AccessTokenRequest.fromJson, AccessTokenSuccessResponse.fromJson,
    CredentialRequest.fromJson, CredentialSuccessResponse.fromJson, CredentialIssuerMetadata.fromJson,
    EvaluateCredentialRequestOptions.fromJson, EvaluateAccessTokenRequestOptions.fromJson, CNonce.fromJson,
    AuthorizationServerMetadata.fromJson, ProofJwt.fromJson, C145_seen h h' e]

/-- C145. A text that is read is read without its white space, too. -/
theorem C145_request {s : Str} {r : CredentialRequest} (h : CredentialRequest.fromJson s = some r) :
    CredentialRequest.fromJson (dense false s) = some r := by
  have hg := grammatical_of h
  unfold CredentialRequest.fromJson at h ⊢
  rw [see_dense hg, h]

/-- C145. The same for an offer. -/
theorem C145_offer {s : Str} {o : CredentialOffer} (h : CredentialOffer.fromJson s = some o) :
    CredentialOffer.fromJson (dense false s) = some o := by
  have hg := grammatical_of h
  unfold CredentialOffer.fromJson at h ⊢
  rw [see_dense hg, h]

theorem parse_dense {s : Str} {j : Json} (h : Json.parse s = some j) : Json.parse (dense false s) = some j := by
  rw [← see_any] at h ⊢
  rw [← h]
  exact see_dense (grammatical_of (de := some) (by rw [h]; rfl))

theorem parse_alike {s s' : Str} {j j' : Json} (h : Json.parse s = some j) (h' : Json.parse s' = some j')
    (e : SpacedAlike s s') : j = j' := by
  have h1 := parse_dense h
  rw [show dense false s = dense false s' from e, parse_dense h'] at h1
  exact (Option.some.inj h1).symm

/-- What a proof says depends on the values of its header and body. -/
theorem proof_respelled (x : Ext) {h h' b b' header header' body body' : Str} {rest : List Str} {hj bj : Json}
    (hh : Json.parse h = some hj) (hh' : Json.parse h' = some hj) (hb : Json.parse b = some bj)
    (hb' : Json.parse b' = some bj) (sh : IsDocSegment h header) (sh' : IsDocSegment h' header')
    (sb : IsDocSegment b body) (sb' : IsDocSegment b' body') (hr : ∀ p ∈ rest, NoDot p) (j : ProofJwt) :
    ProofJwt.fromStr x (dotted (header :: body :: rest)) = .ok j ↔
      ProofJwt.fromStr x (dotted (header' :: body' :: rest)) = .ok j := by
  have slice : ∀ {t : Str} {v : Json}, Json.parse t = some v → Json.parseSlice (utf8Encode t) = some v := by
    intro t v ht
    rw [Json.parseSlice, utf8Decode_encode, Option.bind_some, ht]
  have seg : ∀ {t segment : Str}, IsDocSegment t segment → NoDot segment ∧ base64urlDecode segment = some (utf8Encode t) := by
    intro t segment ht
    refine ⟨?_, (C44_base64url_rfc4648 _ _).1.2 ht⟩
    rw [← (C44_base64url_rfc4648 _ _).2.2 ht]
    exact noDot_encode _
  have split : ∀ {a b : Str}, NoDot a → NoDot b → splitOn '.' (dotted (a :: b :: rest)) = a :: b :: rest := by
    intro a b ha hb
    refine splitOn_dotted _ (by simp) ?_
    intro p hp
    rcases List.mem_cons.1 hp with rfl | hp
    · exact ha
    rcases List.mem_cons.1 hp with rfl | hp
    · exact hb
    · exact hr p hp
  unfold ProofJwt.fromStr
  rw [split (seg sh).1 (seg sb).1, split (seg sh').1 (seg sb').1]
  simp only [(seg sh).2, (seg sh').2, (seg sb).2, (seg sb').2, slice hh, slice hh', Option.bind_some,
    ProofJwtBody.fromSlice_of_parse x (slice hb), ProofJwtBody.fromSlice_of_parse x (slice hb')]
  cases ProofJwtHeader.de hj with
  | none => constructor <;> (intro h; cases h)
  | some h =>
    cases ProofJwtBody.de x bj with
    | none => constructor <;> (intro h; cases h)
    | some b => exact Iff.rfl

/-- C145. Headers and bodies of proofs: which white space they are written with does not matter for what the proof says
(the signature is on what was sent, of course, see C31). -/
theorem C145_proof (x : Ext) {h h' b b' header header' body body' : Str} {rest : List Str} {hj hj' bj bj' : Json}
    (hh : Json.parse h = some hj) (hh' : Json.parse h' = some hj') (eh : SpacedAlike h h')
    (hb : Json.parse b = some bj) (hb' : Json.parse b' = some bj') (eb : SpacedAlike b b')
    (sh : IsDocSegment h header) (sh' : IsDocSegment h' header') (sb : IsDocSegment b body)
    (sb' : IsDocSegment b' body') (hr : ∀ p ∈ rest, NoDot p) (j : ProofJwt) :
    ProofJwt.fromStr x (dotted (header :: body :: rest)) = .ok j ↔
      ProofJwt.fromStr x (dotted (header' :: body' :: rest)) = .ok j := by
  cases parse_alike hh hh' eh
  cases parse_alike hb hb' eb
  exact proof_respelled x hh hh' hb hb' sh sh' sb sb' hr j

namespace Ex

/-- A request on one line and on several ones. -/
def tightRequest : Str := str! "{\"format\":\"mso_mdoc\",\"doctype\":\"a b\",\"proof\":{\"jwt\":\"a.b\\\" c\"}}"

def spacedRequest : Str :=
  str! " {\n  \"format\" : \"mso_mdoc\",\r\n\t\"doctype\": \"a b\",\n  \"proof\": { \"jwt\": \"a.b\\\" c\" }\n}\n"

/-- They differ in white space only, and both are read. -/
example : SpacedAlike spacedRequest tightRequest ∧ dense false tightRequest = tightRequest ∧
    CredentialRequest.fromJson spacedRequest =
      some ⟨.msoMdoc (str! "a b") none none, some ⟨str! "JWT", str! "a.b\" c"⟩⟩ := by
  unfold SpacedAlike
  decide +kernel

example : CredentialRequest.fromJson spacedRequest = CredentialRequest.fromJson tightRequest := by
  have h : ∀ s, (CredentialRequest.fromJson s).isSome → Grammatical s := by
    intro s hs
    obtain ⟨r, hr⟩ := Option.isSome_iff_exists.1 hs
    exact grammatical_of hr
  exact (C145_read ext (h _ (by decide +kernel)) (h _ (by decide +kernel)) (by unfold SpacedAlike; decide +kernel)).2.2.2.1

/-- White space inside of strings counts; inside of other tokens it breaks them. -/
example : ¬ SpacedAlike (str! "\"a b\"") (str! "\"ab\"") ∧ Json.parse (str! "\"a b\"") ≠ Json.parse (str! "\"ab\"") ∧
    SpacedAlike (str! "1 2") (str! "12") ∧ Json.parse (str! "1 2") = none ∧ Json.parse (str! "12") = some (.num 12) := by
  unfold SpacedAlike
  decide +kernel

end Ex

end Oid4vci
