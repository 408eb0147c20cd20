import Verif.Props.Spaces
import Verif.Props.Altered

/-!
C147. How a document is spelled means nothing: which characters of its strings are escaped, and how, with which digits its
numbers are written, and where it has white space.
-/

namespace Oid4vci

open Json Spec Serde CredentialIssuer

/-- C147. Texts of the same value look the same to every reader. -/
theorem C147_seen (σ : Shape) {j : Json} {s s' : Str} (h : JsonText j s) (h' : JsonText j s') : see σ s = see σ s' := by
  rw [see_text σ h, see_text σ h']

/-- C147. … also if everything is read … -/
theorem C147_parse {j : Json} {s s' : Str} (h : JsonText j s) (h' : JsonText j s') : Json.parse s = Json.parse s' := by
  rw [← see_any, ← see_any, C147_seen .any h h']

/-- C147. Offers, requests, responses, metadata, settings and nonces are read alike from them. -/
theorem C147_read (x : Ext) {j : Json} {s s' : Str} (h : JsonText j s) (h' : JsonText j s') :
    CredentialOffer.fromJson s = CredentialOffer.fromJson s' ∧
    AccessTokenRequest.fromJson s = AccessTokenRequest.fromJson s' ∧
    AccessTokenSuccessResponse.fromJson s = AccessTokenSuccessResponse.fromJson s' ∧
    CredentialRequest.fromJson s = CredentialRequest.fromJson s' ∧
    CredentialSuccessResponse.fromJson s = CredentialSuccessResponse.fromJson s' ∧
    CredentialIssuerMetadata.fromJson s = CredentialIssuerMetadata.fromJson s' ∧
    CredentialFormatProfile.fromJson s = CredentialFormatProfile.fromJson s' ∧
    EvaluateCredentialRequestOptions.fromJson x s = EvaluateCredentialRequestOptions.fromJson x s' ∧
    EvaluateAccessTokenRequestOptions.fromJson s = EvaluateAccessTokenRequestOptions.fromJson s' ∧
    CNonce.fromJson s = CNonce.fromJson s' ∧
    AuthorizationServerMetadata.fromJson s = AuthorizationServerMetadata.fromJson s' ∧
    ProofJwt.fromJson x s = ProofJwt.fromJson x s' := by
  refine ⟨?_, ?_, ?_, ?_, ?_, ?_, ?_, ?_, ?_, ?_, ?_, ?_⟩
  case refine_7 => exact congrArg (·.bind (CredentialFormatProfile.de false)) (C147_parse h h')
  all_goals simp only [CredentialOffer.fromJson, AccessTokenRequest.fromJson, AccessTokenSuccessResponse.fromJson,
    CredentialRequest.fromJson, CredentialSuccessResponse.fromJson, CredentialIssuerMetadata.fromJson,
    EvaluateCredentialRequestOptions.fromJson, EvaluateAccessTokenRequestOptions.fromJson, CNonce.fromJson,
    AuthorizationServerMetadata.fromJson, ProofJwt.fromJson, C147_seen _ h h']

/-- C147. So every text may be replaced by the one the library itself writes for the value: here for requests and offers. -/
theorem C147_rewritten {j : Json} {s : Str} (h : JsonText j s) (hn : PlainNumbers j) :
    CredentialRequest.fromJson s = CredentialRequest.fromJson j.print ∧
    CredentialOffer.fromJson s = CredentialOffer.fromJson j.print := by
  have h' : JsonText j j.print := by
    have := print_text j (rust_of_plain j hn)
    rwa [settle_plain hn] at this
  unfold CredentialRequest.fromJson CredentialOffer.fromJson
  rw [C147_seen _ h h', C147_seen _ h h']
  exact ⟨rfl, rfl⟩

section
variable (x : Ext) {h h' b b' header header' body body' : Str} {rest : List Str} {hj bj : Json}
  (hh : JsonText hj h) (hh' : JsonText hj h') (hb : JsonText bj b) (hb' : JsonText bj b')
  (dh : depth hj ≤ maxDepth) (db : depth bj ≤ maxDepth)
  (sh : IsDocSegment h header) (sh' : IsDocSegment h' header') (sb : IsDocSegment b body)
  (sb' : IsDocSegment b' body') (hr : ∀ p ∈ rest, NoDot p)
include hh hh' hb hb' dh db sh sh' sb sb' hr

/-- C147. Headers and bodies of proofs. -/
theorem C147_proof (j : ProofJwt) :
    ProofJwt.fromStr x (dotted (header :: body :: rest)) = .ok j ↔
      ProofJwt.fromStr x (dotted (header' :: body' :: rest)) = .ok j :=
  proof_respelled x (parse_complete hh dh) (parse_complete hh' dh) (parse_complete hb db) (parse_complete hb' db)
    sh sh' sb sb' hr j

/-- C147. Which proofs are accepted, and what is returned for them. (The message returned is the same, too, although the
holder signed the one spelling and not the other, see C31.) -/
theorem C147_accepted (now : Time) (m : CredentialIssuerMetadata) (format : CredentialFormatProfile) (type : Str)
    (offer : Option CredentialOffer) (asm : Option AuthorizationServerMetadata) (doc : Option x.Doc)
    (options : Option EvaluateCredentialRequestOptions) (resp : CredentialIssuerEvaluateRequestResponse) :
    evaluateCredentialRequest x now m ⟨format, some ⟨type, dotted (header :: body :: rest)⟩⟩ offer asm doc options =
        .ok resp ↔
      evaluateCredentialRequest x now m ⟨format, some ⟨type, dotted (header' :: body' :: rest)⟩⟩ offer asm doc options =
        .ok resp := by
  have key := C147_proof x hh hh' hb hb' dh db sh sh' sb sb' hr
  constructor
  · intro h
    obtain ⟨-, -, o, jwt, did, k, sig, msg, ho, ⟨⟨p, hp, hj⟩, -⟩, -⟩ := (evaluate_ok_iff ..).1 h
    cases hp
    rw [← h]
    unfold evaluateCredentialRequest
    simp only [hj, (key jwt).1 hj]
  · intro h
    obtain ⟨-, -, o, jwt, did, k, sig, msg, ho, ⟨⟨p, hp, hj⟩, -⟩, -⟩ := (evaluate_ok_iff ..).1 h
    cases hp
    rw [← h]
    unfold evaluateCredentialRequest
    simp only [hj, (key jwt).2 hj]

end

namespace Ex

/-- A request, and one with escapes in names and values. -/
def plainSpelling : Str := str! "{\"format\":\"mso_mdoc\",\"doctype\":\"a/b\",\"proof\":{\"jwt\":\"😀\"}}"

def oddSpelling : Str :=
  str! "{\"f\\u006Frmat\":\"\\u006dso_mdoc\",\"doctype\" : \"a\\/b\",\"proof\":{\"jwt\":\"\\ud83d\\uDE00\"}}"

example : CredentialRequest.fromJson oddSpelling = CredentialRequest.fromJson plainSpelling ∧
    CredentialRequest.fromJson plainSpelling = some ⟨.msoMdoc (str! "a/b") none none, some ⟨str! "JWT", str! "😀"⟩⟩ := by
  have h : ∀ s v, Json.parse s = some v → JsonText v s := fun s v h => (parse_sound h).1
  have hv : ∃ v, Json.parse plainSpelling = some v ∧ Json.parse oddSpelling = some v :=
    ⟨.obj [(str! "format", .str (str! "mso_mdoc")), (str! "doctype", .str (str! "a/b")),
      (str! "proof", .obj [(str! "jwt", .str (str! "😀"))])], by decide +kernel, by decide +kernel⟩
  obtain ⟨v, h1, h2⟩ := hv
  exact ⟨(C147_read ext (h _ _ h2) (h _ _ h1)).2.2.2.1, by decide +kernel⟩

/-- Numbers: `10`, `1e1` and `10.0` are not all the same, but `1e1` and `10.0` are. -/
example : Json.parse (str! "1e1") = Json.parse (str! "10.0") ∧ Json.parse (str! "1E+1") = Json.parse (str! "0.1e2") ∧
    Json.parse (str! "10") ≠ Json.parse (str! "1e1") := by decide +kernel

end Ex

end Oid4vci
