import Verif.Props.Results
import Verif.Props.Documented
import Verif.Props.Instant
import Verif.Props.Wire
import Verif.Spec.Written

/-!
What is written: C90 members of documents and results, C91 ASCII descriptions, C92 the issued credential,
C93 absent members, C94 languages of claims, C95 DID methods in metadata.
-/

namespace Oid4vci

open Spec Serde CredentialIssuer

/-! ### C90 -/

/-- C90. Offers, with their grants and entries, are written with exactly the documented members. -/
theorem C90_offer :
    (∀ o : CredentialOffer, Writes offerNames o.ser) ∧
    (∀ g : CredentialOfferGrants, Writes (grantsNames g) g.ser) ∧
    (∀ a : AuthorizedCodeFlow, Writes [(str! "issuer_state", true)] a.ser) ∧
    (∀ p : PreAuthorizedCodeFlow, Writes (preAuthorizedNames p) p.ser) ∧
    (∀ c : CredentialFormatProfile, Writes (credentialNames c) c.ser) ∧
    (∀ c : CredentialSubject, Writes (subjectNames c) c.ser) ∧
    ∀ d : CredentialSubjectDisplay, Writes (subjectDisplayNames d) d.ser := by
  refine ⟨fun o => ⟨_, rfl, rfl⟩, fun g => ⟨_, rfl, ?_⟩, fun a => ⟨_, rfl, rfl⟩, fun p => ⟨_, rfl, ?_⟩,
    fun c => ?_, fun c => ⟨_, rfl, ?_⟩, fun d => ⟨_, rfl, ?_⟩⟩
  · obtain ⟨a, p⟩ := g; cases a <;> cases p <;> rfl
  · obtain ⟨_, p⟩ := p; cases p <;> rfl
  · cases c with
    | jwtVcJson _ a b => refine ⟨_, rfl, ?_⟩; cases a <;> cases b <;> rfl
    | jwtVcJsonLd _ a b => refine ⟨_, rfl, ?_⟩; cases a <;> cases b <;> rfl
    | ldpVc _ _ a b => refine ⟨_, rfl, ?_⟩; cases a <;> cases b <;> rfl
    | msoMdoc _ a b => refine ⟨_, rfl, ?_⟩; cases a <;> cases b <;> rfl
  · obtain ⟨a, b, c⟩ := c; cases a <;> cases b <;> cases c <;> rfl
  · obtain ⟨a, b⟩ := d; cases a <;> cases b <;> rfl

theorem writes_flat (c : CredentialFormatProfile) (ks : List (Str × Json)) (names : List (Str × Bool))
    (h : ks.map Prod.fst = (names.filter (·.2)).map Prod.fst) :
    Writes (credentialNames c ++ names) (.obj (c.members ++ ks)) := by
  obtain ⟨kvs, h1, h2⟩ := C90_offer.2.2.2.2.1 c
  refine ⟨_, rfl, ?_⟩
  rw [CredentialFormatProfile.members, h1]
  simp only [List.map_append, List.filter_append, h2, h]

/-- C90. Requests and responses are written with exactly the documented members. -/
theorem C90_requests :
    (∀ r : AccessTokenRequest, Writes [(str! "grant_type", true)] r.ser) ∧
    (∀ g : GrantType, Writes (grantNames g) g.ser) ∧
    (∀ r : AccessTokenSuccessResponse, Writes tokenResponseNames r.ser) ∧
    (∀ r : CredentialRequest, Writes (credentialNames r.format ++ [(str! "proof", true)]) r.ser) ∧
    (∀ p : CredentialRequestProof, Writes [(str! "proof_type", true), (str! "jwt", true)] p.ser) ∧
    (∀ r : CredentialSuccessResponse, Writes responseNames r.ser) ∧
    (∀ h : ProofJwtHeader, Writes (headerNames h) h.ser) ∧
    ∀ (x : Ext) (b : ProofJwtBody), Writes (bodyNames b) (b.ser x) := by
  refine ⟨fun r => ⟨_, rfl, rfl⟩, fun g => ?_, fun r => ⟨_, rfl, rfl⟩, fun r => writes_flat _ _ _ rfl,
    fun p => ⟨_, rfl, rfl⟩, fun r => ⟨_, rfl, rfl⟩, fun h => ⟨_, rfl, ?_⟩, fun x b => ⟨_, rfl, ?_⟩⟩
  · cases g <;> exact ⟨_, rfl, rfl⟩
  · obtain ⟨t, a, h⟩ := h
    cases h with
    | none => rfl
    | some h => cases h <;> rfl
  · obtain ⟨a, _, _, _, _, b, c⟩ := b
    cases a <;> cases b <;> cases c <;> rfl

/-- C90. Metadata is written with exactly the documented members, followed by the additional ones. -/
theorem C90_metadata :
    (∀ m : CredentialIssuerMetadata, Writes (metadataNames ++ additionalNames m) m.ser) ∧
    (∀ c : CredentialSupported, Writes (supportedEntryNames c) c.ser) ∧
    (∀ d : DisplayProperties, Writes displayNames d.ser) ∧
    ∀ l : DisplayLogo, Writes [(str! "url", true), (str! "alt_text", true)] l.ser := by
  refine ⟨fun m => ⟨_, rfl, ?_⟩, fun c => writes_flat _ _ _ rfl, fun d => ⟨_, rfl, rfl⟩,
    fun l => ⟨_, rfl, rfl⟩⟩
  rw [List.map_append, List.filter_append, List.map_append]
  congr 1
  unfold additionalNames
  cases m.additionalFields with
  | none => rfl
  | some kvs =>
    simp only [Option.getD_some]
    induction kvs with
    | nil => rfl
    | cons p r ih => simp only [List.map_cons, List.filter_cons_of_pos, ih]

/-- C90. The settings and nonces of the application are written with exactly their members. -/
theorem C90_settings (x : Ext) :
    (∀ o : CNonceOptions, Writes [(str! "c_nonce_expires_in", true), (str! "expected_c_nonce", true),
      (str! "c_nonce_created_at", true)] (o.ser x)) ∧
    (∀ o : EvaluateCredentialRequestOptions,
      Writes [(str! "c_nonce", true), (str! "client_id", true)] (o.ser x)) ∧
    (∀ c : CNonce, Writes [(str! "c_nonce", true), (str! "c_nonce_expires_in", true)] c.ser) ∧
    (∀ o : EvaluateAccessTokenRequestOptions, Writes [(str! "expected_user_pin", true)] o.ser) ∧
    (∀ j : ProofJwt, Writes [(str! "header", true), (str! "body", true), (str! "signature", true)]
      (j.ser x)) ∧
    ∀ a : AuthorizationServerMetadata, Writes [] a.ser :=
  ⟨fun _ => ⟨_, rfl, rfl⟩, fun _ => ⟨_, rfl, rfl⟩, fun _ => ⟨_, rfl, rfl⟩, fun _ => ⟨_, rfl, rfl⟩,
   fun _ => ⟨_, rfl, rfl⟩, fun _ => ⟨_, rfl, rfl⟩⟩

theorem isBytes_ser (b : Bytes) : IsBytes (serBytes b) b := by
  refine ⟨_, rfl, ?_⟩
  induction b with
  | nil => exact .nil
  | cons u r ih => exact .cons rfl ih

theorem algorithmName_ser (a : ProofJwtAlgorithm) : IsAlgorithmName a.ser a :=
  ⟨a.name, by cases a <;> decide, rfl⟩

theorem possession_doc (p : ProofOfPossession) : PossessionDoc p.ser p := by
  refine ⟨p.algorithm.ser, serBytes p.publicKey, serBytes p.message, serBytes p.signature,
    .object _ _ (.cons ⟨?_, rfl⟩ (.cons ⟨?_, rfl⟩ (.cons ⟨?_, rfl⟩ (.cons ⟨?_, rfl⟩ .nil)))),
    algorithmName_ser _, isBytes_ser _, isBytes_ser _, isBytes_ser _⟩ <;> simp

/-- C90. The results of evaluation and pre-evaluation are written with exactly the documented members, and
these hold the algorithm, key, message, signature, subject, credential and DID of the result. -/
theorem C90_results :
    (∀ p : ProofOfPossession, PossessionDoc p.ser p ∧ Writes [(str! "algorithm", true),
      (str! "public_key", true), (str! "message", true), (str! "signature", true)] p.ser) ∧
    (∀ r : CredentialIssuerEvaluateRequestResponse, RustCredential r.credential →
      EvaluatedDoc r.ser r) ∧
    (∀ r : CredentialIssuerEvaluateRequestResponse, Writes [(str! "proof_of_possession", true),
      (str! "subject_id", true), (str! "credential", true)] r.ser) ∧
    ∀ r : PreEvaluateCredentialRequestResponse, PreEvaluatedDoc r.ser r ∧
      Writes [(str! "did", r.did.isSome)] r.ser := by
  refine ⟨fun p => ⟨possession_doc p, ⟨_, rfl, rfl⟩⟩, fun r hg => ?_, fun r => ⟨_, rfl, rfl⟩,
    fun r => ⟨?_, ?_⟩⟩
  · refine ⟨serOpt ProofOfPossession.ser r.proofOfPossession, serOpt .str r.subjectId, r.credential.ser,
      .object _ _ (.cons ⟨?_, rfl⟩ (.cons ⟨?_, rfl⟩ (.cons ⟨?_, rfl⟩ .nil))), ?_, ?_,
      (C63_credential false _ _).1 (CredentialFormatProfile.de_ser false _ hg)⟩
    · simp
    · simp
    · simp
    · cases r.proofOfPossession with
      | none => exact .inr rfl
      | some p => exact ⟨_, rfl, possession_doc p⟩
    · cases r.subjectId with
      | none => exact .inr rfl
      | some s => exact ⟨_, rfl, rfl⟩
  · obtain ⟨d⟩ := r
    cases d with
    | none => exact ⟨none, .object _ _ (.cons (fun v h => by cases h) .nil), .inl rfl⟩
    | some d => exact ⟨some (.str d), .object _ _ (.cons ⟨by simp [skipNone], rfl⟩ .nil), _, rfl, rfl⟩
  · obtain ⟨d⟩ := r; cases d <;> exact ⟨_, rfl, rfl⟩

/-- C90. The result of creating a token response is written as a list: the token response, then the instant
of its creation. -/
theorem C90_created (x : Ext) (p : AccessTokenSuccessResponse × Time) (h : Time.Valid p.2) :
    ∃ a s, serPair AccessTokenSuccessResponse.ser (fun t => .str ((withChrono x).showTime t)) p
        = .arr [a, .str s] ∧ TokenResponseDoc a p.1 ∧ InstantText s p.2 :=
  ⟨_, _, rfl, (C63_tokenResponse _ _).1 (AccessTokenSuccessResponse.de_ser p.1),
    (C74_exact _ _).1 (Chrono.parse_show p.2 h)⟩

/-- C71. The text of the result of creating a token response determines the response and the instant. -/
theorem C71_created (x : Ext) : Faithful (fun p : AccessTokenSuccessResponse × Time => Time.Valid p.2)
    (serPair AccessTokenSuccessResponse.ser fun t => .str ((withChrono x).showTime t)) where
  numbers p _ := ⟨(fits_tokenResponse 0 p.1).rust, trivial, trivial⟩
  injective p p' h h' he := by
    obtain ⟨r, t⟩ := p
    obtain ⟨r', t'⟩ := p'
    simp only [serPair, Json.arr.injEq, List.cons.injEq, Json.str.injEq, and_true] at he
    have h1 : some r = some r' := by
      rw [← AccessTokenSuccessResponse.de_ser r, he.1, AccessTokenSuccessResponse.de_ser r']
    rw [Option.some.inj h1, C61_instants x t t' h h' he.2]

example : Json.print (ProofOfPossession.ser ⟨.EdDSA, [1, 2], [255], []⟩)
    = str! "{\"algorithm\":\"EdDSA\",\"public_key\":[1,2],\"message\":[255],\"signature\":[]}" := by
  decide +kernel
example : Json.print (PreEvaluateCredentialRequestResponse.ser ⟨some (str! "did:key:z")⟩)
    = str! "{\"did\":\"did:key:z\"}" := by decide +kernel

/-! ### C91 -/

/-- C91 in full: the description of every error response is ASCII text, as error_response.rs:12-13 says. -/
def C91_statement : Prop :=
  (∀ code desc uri details r, createAccessTokenErrorResponse code desc uri details = .ok r →
    ∀ d ∈ r.errorDescription, IsAscii d) ∧
  ∀ code desc uri details r, createCredentialErrorResponse code desc uri details = .ok r →
    ∀ d ∈ r.errorDescription, IsAscii d

/-- C91 is violated by every description that is not ASCII: it becomes part of the response as it is, and
of the document. -/
theorem C91_passed_on (x : Ext) (d : Str) (uri : Option Str) (kvs : List (Str × Json)) :
    (∀ code, ∃ r j, createAccessTokenErrorResponse code (some d) uri (some (.obj kvs)) = .ok r ∧
      r.errorDescription = some d ∧ r.ser x AccessTokenErrorCode.ser = some j ∧
      .str d ∈ members (str! "error_description") j) ∧
    ∀ code, ∃ r j, createCredentialErrorResponse code (some d) uri (some (.obj kvs)) = .ok r ∧
      r.errorDescription = some d ∧ r.ser x CredentialIssuerErrorCode.ser = some j ∧
      .str d ∈ members (str! "error_description") j :=
  ⟨fun code => ⟨_, _, rfl, rfl, rfl, by simp [members, serOpt]⟩,
   fun code => ⟨_, _, rfl, rfl, rfl, by simp [members, serOpt]⟩⟩

/-- C91 does not hold. -/
theorem C91_refuted : ¬ C91_statement := by
  intro h
  have := h.1 .invalidRequest (some (str! "Ungültig")) none none _ rfl (str! "Ungültig") rfl 'ü' (by decide)
  exact absurd this (by decide)

theorem isAscii_append {a b : Str} : IsAscii (a ++ b) ↔ IsAscii a ∧ IsAscii b := by
  simp [IsAscii, or_imp, forall_and]

/-- The check of a literal. -/
theorem isAscii_of {s : Str} (h : s.all (fun c => decide (c.val < 128)) = true) : IsAscii s := by
  intro c hc
  simpa using List.all_eq_true.1 h c hc

/-- C91, partial: the descriptions of the library's own errors are ASCII, except for what they repeat from
their input, provided that date-times are displayed in ASCII. Missing: descriptions from elsewhere. -/
theorem C91_own_descriptions_partial (x : Ext) (hx : ∀ t, IsAscii (x.dispTime t)) :
    (∀ e : ValidationError, IsAscii e.description) ∧
    (∀ e : AccessTokenError, IsAscii e.description) ∧
    (∀ e : JwtError, IsAscii (e.description x) ↔ IsAscii (jwtQuoted e)) ∧
    ∀ e : CredentialIssuerError, IsAscii (e.description x) ↔ IsAscii (issuerQuoted e) := by
  have h1 : ∀ e : ValidationError, IsAscii e.description := by
    rintro ⟨_⟩; exact isAscii_of rfl
  have nil : IsAscii [] := by intro c hc; cases hc
  have h3 : ∀ e : JwtError, IsAscii (e.description x) ↔ IsAscii (jwtQuoted e) := by
    intro e
    cases e with
    | notYetValid f n =>
      exact iff_of_true (isAscii_append.2 ⟨isAscii_append.2 ⟨isAscii_append.2
        ⟨isAscii_of rfl, hx _⟩, isAscii_of rfl⟩, hx _⟩) nil
    | notValidAnymore f n =>
      exact iff_of_true (isAscii_append.2 ⟨isAscii_append.2 ⟨isAscii_append.2
        ⟨isAscii_of rfl, hx _⟩, isAscii_of rfl⟩, hx _⟩) nil
    | unableToTransformIntoJoseItem o _ =>
      exact ⟨fun h => (isAscii_append.1 (isAscii_append.1 h).1).2, fun h => isAscii_append.2
        ⟨isAscii_append.2 ⟨isAscii_of rfl, h⟩, isAscii_of rfl⟩⟩
    | unsupportedAlgorithm o =>
      exact ⟨fun h => (isAscii_append.1 (isAscii_append.1 h).1).2, fun h => isAscii_append.2
        ⟨isAscii_append.2 ⟨isAscii_of rfl, h⟩, isAscii_of rfl⟩⟩
    | eSXXXHasNoXOrYCoordinate o =>
      exact ⟨fun h => (isAscii_append.1 (isAscii_append.1 h).1).2, fun h => isAscii_append.2
        ⟨isAscii_append.2 ⟨isAscii_of rfl, h⟩, isAscii_of rfl⟩⟩
    | unsupportedKeyTypeInJwtHeader _ o =>
      exact ⟨fun h => (isAscii_append.1 (isAscii_append.1 h).1).2, fun h => isAscii_append.2
        ⟨isAscii_append.2 ⟨isAscii_of rfl, h⟩, isAscii_of rfl⟩⟩
    | _ => exact iff_of_true (isAscii_of rfl) nil
  refine ⟨h1, fun e => ?_, h3, fun e => ?_⟩
  · cases e with
    | validationError e => exact h1 e
    | _ => exact isAscii_of rfl
  · cases e with
    | validationError e => exact iff_of_true (h1 e) nil
    | jwtError e => exact h3 e
    | credentialIdNotInIssuerMetadata o =>
      exact ⟨fun h => (isAscii_append.1 (isAscii_append.1 h).1).2, fun h => isAscii_append.2
        ⟨isAscii_append.2 ⟨isAscii_of rfl, h⟩, isAscii_of rfl⟩⟩
    | cNonceIsExpired n e =>
      exact iff_of_true (isAscii_append.2 ⟨isAscii_append.2 ⟨isAscii_append.2
        ⟨isAscii_of rfl, hx _⟩, isAscii_of rfl⟩, hx _⟩) nil
    | _ => exact iff_of_true (isAscii_of rfl) nil

theorem isAscii_cons {c : Char} {s : Str} : IsAscii (c :: s) ↔ c.val < 128 ∧ IsAscii s := by
  simp [IsAscii]

theorem isAscii_digits {s : Str} (h : ∀ c ∈ s, Json.isDigit c = true) : IsAscii s := by
  intro c hc
  have h1 := h c hc
  simp only [Json.isDigit, Bool.and_eq_true, decide_eq_true_eq] at h1
  have h2 : c.toNat ≤ 57 := h1.2
  show c.val.toNat < 128
  change c.val.toNat ≤ 57 at h2
  omega

theorem isAscii_fixed (w n : Nat) : IsAscii (Chrono.fixed w n) := isAscii_digits (Chrono.fixed_spec w n).1

/-- C91, partial: dates are displayed in ASCII, so the condition of `C91_own_descriptions_partial` holds. -/
theorem C91_dates_partial (t : Time) : IsAscii (Chrono.dispTime t) := by
  have hf := isAscii_fixed
  have nil : IsAscii [] := by intro c hc; cases hc
  have hy : ∀ y, IsAscii (Chrono.showYear y) := by
    intro y
    unfold Chrono.showYear
    split
    · exact hf _ _
    · refine isAscii_cons.2 ⟨by split <;> decide, ?_⟩
      split
      · exact hf _ _
      · exact isAscii_digits (Json.natDigits_facts _ _ (Nat.lt_succ_self _)).1
  have hn : ∀ n, IsAscii (Chrono.showFraction n) := by
    intro n
    unfold Chrono.showFraction
    split
    · exact nil
    · split
      · exact isAscii_cons.2 ⟨by decide, hf _ _⟩
      · split <;> exact isAscii_cons.2 ⟨by decide, hf _ _⟩
  simp only [Chrono.dispTime, isAscii_append, isAscii_cons, hf, hy, hn, nil, true_and, and_true]
  decide

example (x : Ext) : ¬ IsAscii (CredentialIssuerError.description (withChrono x)
    (.credentialIdNotInIssuerMetadata (str! "é"))) := by
  rw [(C91_own_descriptions_partial (withChrono x) C91_dates_partial).2.2.2]
  intro h; exact absurd (h 'é' (by decide)) (by decide)
example (x : Ext) : IsAscii (CredentialIssuerError.description (withChrono x) (.cNonceIsExpired 5 0)) :=
  ((C91_own_descriptions_partial (withChrono x) C91_dates_partial).2.2.2 _).2 (by intro c hc; cases hc)

/-! ### C92 -/

/-- C92 in full: credentials of the encoded formats are strings in the written response, and `ldp_vc`
credentials are objects with the credential's own members (credential_issuer/mod.rs:330-334). -/
def C92_statement : Prop := ∀ (x : Ext) (now : Time) (r : CredentialRequest) (c : CredentialFormatProfile)
    (nonce : Option CNonce) (resp : CredentialSuccessResponse) (t : Time),
  createCredentialSuccessResponse x now r (some (.credential c)) nonce = .ok (resp, t) →
  ((∀ ctx types cs order, c ≠ .ldpVc ctx types cs order) →
    ∃ s, members (str! "credential") resp.ser = [.str s]) ∧
  ((∃ ctx types cs order, c = .ldpVc ctx types cs order) →
    ∃ v, members (str! "credential") resp.ser = [v] ∧ Writes (credentialNames c) v)

/-- C92 is violated by every response with a credential: it is wrapped in an object with a single member,
named after the variant of an enum of the library. -/
theorem C92_wrapped (x : Ext) (now : Time) (r : CredentialRequest) (c : CredentialFormatProfile)
    (nonce : Option CNonce) (resp : CredentialSuccessResponse) (t : Time)
    (h : createCredentialSuccessResponse x now r (some (.credential c)) nonce = .ok (resp, t)) :
    ((∀ ctx types cs order, c ≠ .ldpVc ctx types cs order) →
      ∃ s, members (str! "credential") resp.ser = [.obj [(str! "Encoded", .str s)]]) ∧
    ((∃ ctx types cs order, c = .ldpVc ctx types cs order) →
      members (str! "credential") resp.ser = [.obj [(str! "CredentialFormatProfile", c.ser)]]) := by
  have hresp : .ok resp.credential
      = (CredentialFormatProfileOrEncoded.tryFrom c).bind fun e => .ok (some e) := by
    unfold createCredentialSuccessResponse at h
    simp only [Res.bind_eq_ok] at h
    obtain ⟨-, -, e', h1, h3⟩ := h
    replace h1 := Res.mapErr_eq_ok.1 h1
    rw [h1]
    simp only [Res.ok.injEq, Prod.mk.injEq] at h3
    obtain ⟨_, rfl, rfl, -⟩ := h3
    rfl
  have key : members (str! "credential") resp.ser
      = [serOpt CredentialFormatProfileOrEncoded.ser resp.credential] := rfl
  rw [key]
  constructor
  · intro hn
    cases c with
    | ldpVc ctx types cs order => exact absurd rfl (hn ctx types cs order)
    | _ => simp [CredentialFormatProfileOrEncoded.tryFrom] at hresp; rw [hresp]; exact ⟨_, rfl⟩
  · rintro ⟨ctx, types, cs, order, rfl⟩
    simp [CredentialFormatProfileOrEncoded.tryFrom] at hresp; rw [hresp]; rfl

example (x : Ext) : ∃ resp t, createCredentialSuccessResponse x 7 ⟨Ex.ldp, none⟩
    (some (.credential Ex.mdoc)) (some ⟨str! "n", some 60⟩) = .ok (resp, t) := ⟨_, _, rfl⟩

/-- C92 does not hold. -/
theorem C92_refuted : ¬ C92_statement := by
  intro h
  obtain ⟨s, hs⟩ := (h Ex.ext 0 ⟨Ex.ldp, none⟩ (.msoMdoc [] none none) none _ _ rfl).1
    (fun _ _ _ _ => by simp)
  have hs' := (C92_wrapped Ex.ext 0 ⟨Ex.ldp, none⟩ (.msoMdoc [] none none) none _ _ rfl).1
    (fun _ _ _ _ => by simp)
  obtain ⟨s', hs'⟩ := hs'
  rw [hs] at hs'
  simp at hs'

/-- C92, partial: below the wrapper is what is documented: for the encoded formats a string, the base64url
text of JSON for the credential; for `ldp_vc` the object of the credential, with its members. Missing: the
wrapper, which the documented form does not have. -/
theorem C92_below_wrapper_partial (x : Ext) (now : Time) (r : CredentialRequest)
    (c : CredentialFormatProfile) (nonce : Option CNonce) (resp : CredentialSuccessResponse) (t : Time)
    (h : createCredentialSuccessResponse x now r (some (.credential c)) nonce = .ok (resp, t))
    (hg : RustCredential c) :
    ∃ k v, members (str! "credential") resp.ser = [.obj [(k, v)]] ∧
      ((∀ ctx types cs order, c ≠ .ldpVc ctx types cs order) → ∃ s b, v = .str s ∧ IsBase64url b s ∧
        (Json.parseSlice b).bind (CredentialFormatProfile.de false) = some c) ∧
      ((∃ ctx types cs order, c = .ldpVc ctx types cs order) →
        CredentialDoc false v c ∧ Writes (credentialNames c) v) := by
  have key : members (str! "credential") resp.ser
      = [serOpt CredentialFormatProfileOrEncoded.ser resp.credential] := rfl
  have h1 := C37_lossless x now r c nonce resp t h
  by_cases hl : ∃ ctx types cs order, c = .ldpVc ctx types cs order
  · refine ⟨_, c.ser, by rw [key, h1.1 hl]; rfl, fun hn => ?_, fun _ => ⟨?_, ?_⟩⟩
    · obtain ⟨ctx, types, cs, order, rfl⟩ := hl; exact absurd rfl (hn ctx types cs order)
    · exact (C63_credential false _ _).1 (CredentialFormatProfile.de_ser false c hg)
    · exact C90_offer.2.2.2.2.1 c
  · have hn : ∀ ctx types cs order, c ≠ .ldpVc ctx types cs order :=
      fun ctx types cs order e => hl ⟨ctx, types, cs, order, e⟩
    obtain ⟨s, b, h2, h3, -, h4⟩ := h1.2 hn hg
    exact ⟨_, .str s, by rw [key, h2]; rfl, fun _ => ⟨s, b, rfl, h3, h4⟩, fun h => absurd h hl⟩

/-! ### C93 -/

/-- C93 in full: no member of a document for wallets is written as `null`. -/
def C93_statement : Prop :=
  (∀ r : AccessTokenSuccessResponse, NoNulls r.ser) ∧ (∀ r : CredentialSuccessResponse, NoNulls r.ser) ∧
  (∀ m : CredentialIssuerMetadata, m.additionalFields = none → NoNulls m.ser) ∧
  (∀ c : CredentialSupported, NoNulls c.ser) ∧ (∀ d : DisplayProperties, NoNulls d.ser) ∧
  (∀ l : DisplayLogo, NoNulls l.ser) ∧ (∀ a : AuthorizedCodeFlow, NoNulls a.ser) ∧
  (∀ g : CredentialOfferGrants, NoNulls g.ser) ∧ (∀ p : PreAuthorizedCodeFlow, NoNulls p.ser) ∧
  (∀ o : CredentialOffer, NoNulls o.ser) ∧ (∀ c : CredentialFormatProfile, NoNulls c.ser) ∧
  (∀ c : CredentialSubject, NoNulls c.ser) ∧ ∀ d : CredentialSubjectDisplay, NoNulls d.ser

/-- C93, partial: offers, credentials, claims and their names never have a `null` member. Missing: the
other documents, see `C93_nulls`. -/
theorem C93_none_partial :
    (∀ g : CredentialOfferGrants, NoNulls g.ser) ∧ (∀ p : PreAuthorizedCodeFlow, NoNulls p.ser) ∧
    (∀ o : CredentialOffer, NoNulls o.ser) ∧ (∀ c : CredentialFormatProfile, NoNulls c.ser) ∧
    (∀ c : CredentialSubject, NoNulls c.ser) ∧ ∀ d : CredentialSubjectDisplay, NoNulls d.ser := by
  refine ⟨fun g => ⟨_, rfl, fun k => ?_⟩, fun p => ⟨_, rfl, fun k => ?_⟩, fun o => ⟨_, rfl, fun k => ?_⟩,
    fun c => ?_, fun c => ⟨_, rfl, fun k => ?_⟩, fun d => ⟨_, rfl, fun k => ?_⟩⟩
  · obtain ⟨a, p⟩ := g
    cases a <;> cases p <;> simp [skipNone, AuthorizedCodeFlow.ser, PreAuthorizedCodeFlow.ser]
  · obtain ⟨_, p⟩ := p; cases p <;> simp [skipNone]
  · simp [serVec, CredentialOfferGrants.ser]
  · cases c with
    | jwtVcJson _ a b =>
      refine ⟨_, rfl, fun k => ?_⟩; cases a <;> cases b <;> simp [skipNone, serMap, serVec]
    | jwtVcJsonLd _ a b =>
      refine ⟨_, rfl, fun k => ?_⟩; cases a <;> cases b <;> simp [skipNone, serMap, serVec]
    | ldpVc _ _ a b =>
      refine ⟨_, rfl, fun k => ?_⟩; cases a <;> cases b <;> simp [skipNone, serMap, serVec]
    | msoMdoc _ a b =>
      refine ⟨_, rfl, fun k => ?_⟩; cases a <;> cases b <;> simp [skipNone, serMap, serVec]
  · obtain ⟨a, b, c⟩ := c; cases a <;> cases b <;> cases c <;> simp [skipNone, serVec]
  · obtain ⟨a, b⟩ := d; cases a <;> cases b <;> simp [skipNone]

theorem nulls_nil : Nulls [] (.obj []) := ⟨[], rfl, rfl⟩

theorem nulls_cons {k : Str} {v : Json} {kvs : List (Str × Json)} {names : List (Str × Bool)} {b : Bool}
    (h : Nulls names (.obj kvs)) (hv : v = .null ↔ b = true) :
    Nulls ((k, b) :: names) (.obj ((k, v) :: kvs)) := by
  obtain ⟨_, h1, h2⟩ := h
  cases h1
  refine ⟨_, rfl, ?_⟩
  by_cases hb : b = true
  · subst hb
    rw [hv.2 rfl]
    simp [h2]
  · have : ¬ v = .null := fun h => hb (hv.1 h)
    simp [hb, this, h2]

theorem nulls_skip {k : Str} {v : Json} {kvs : List (Str × Json)} {names : List (Str × Bool)}
    (h : Nulls names (.obj kvs)) (hv : v ≠ .null) : Nulls names (.obj ((k, v) :: kvs)) := by
  obtain ⟨_, h1, h2⟩ := h
  cases h1
  exact ⟨_, rfl, by simp [hv, h2]⟩

theorem serOpt_null {α : Type} {f : α → Json} {o : Option α} (hf : ∀ a, f a ≠ .null) :
    serOpt f o = .null ↔ o.isNone = true := by
  cases o with
  | none => simp [serOpt]
  | some a => simp [serOpt, hf a]

/-- C93 is violated exactly so: each of these members is written as `null` if, and only if, it has no
value. -/
theorem C93_nulls :
    (∀ r : AccessTokenSuccessResponse, Nulls [(str! "expires_in", r.expiresIn.isNone),
      (str! "scope", r.scope.isNone), (str! "c_nonce", r.cNonce.isNone),
      (str! "c_nonce_expires_in", r.cNonceExpiresIn.isNone),
      (str! "authorization_pending", r.authorizationPending.isNone),
      (str! "interval", r.interval.isNone)] r.ser) ∧
    (∀ r : CredentialSuccessResponse, Nulls [(str! "credential", r.credential.isNone),
      (str! "acceptance_token", r.acceptanceToken.isNone), (str! "c_nonce", r.cNonce.isNone),
      (str! "c_nonce_expires_in", r.cNonceExpiresIn.isNone)] r.ser) ∧
    (∀ m : CredentialIssuerMetadata, m.additionalFields = none →
      Nulls [(str! "authorization_server", m.authorizationServer.isNone),
        (str! "batch_credential_endpoint", m.batchCredentialEndpoint.isNone)] m.ser) ∧
    (∀ c : CredentialSupported, Nulls [(str! "id", c.id.isNone),
      (str! "cryptographic_binding_mehtods_supported", c.cryptographicBindingMethodsSupported.isNone),
      (str! "cryptographic_suites_supported", c.cryptographicSuitesSupported.isNone),
      (str! "display", c.display.isNone)] c.ser) ∧
    (∀ d : DisplayProperties, Nulls [(str! "locale", d.locale.isNone), (str! "logo", d.logo.isNone),
      (str! "description", d.description.isNone), (str! "background_color", d.backgroundColor.isNone),
      (str! "text_color", d.textColor.isNone)] d.ser) ∧
    (∀ l : DisplayLogo, Nulls [(str! "url", l.url.isNone), (str! "alt_text", l.altText.isNone)] l.ser) ∧
    (∀ a : AuthorizedCodeFlow, Nulls [(str! "issuer_state", a.issuerState.isNone)] a.ser) ∧
    ∀ r : CredentialRequest, Nulls [(str! "proof", r.proof.isNone)] r.ser := by
  have text : ∀ s : Str, Json.str s ≠ .null := by simp
  have u32 : ∀ n : UInt32, serU32 n ≠ .null := by simp [serU32]
  have flat : ∀ (c : CredentialFormatProfile) (kvs : List (Str × Json)) (names : List (Str × Bool)),
      Nulls names (.obj kvs) → Nulls names (.obj (c.members ++ kvs)) := by
    rintro c kvs names ⟨_, h1, h2⟩
    cases h1
    obtain ⟨ms, h3, h4⟩ := C93_none_partial.2.2.2.1 c
    refine ⟨_, rfl, ?_⟩
    rw [CredentialFormatProfile.members, h3, List.filter_append, ← h2]
    simp only
    rw [List.filter_eq_nil_iff.2, List.nil_append]
    rintro ⟨k, v⟩ hp hv
    simp only [decide_eq_true_eq] at hv
    subst hv
    exact h4 k hp
  refine ⟨fun r => ?_, fun r => ?_, fun m hm => ?_, fun c => ?_, fun d => ?_, fun l => ?_, fun a => ?_,
    fun r => ?_⟩
  · refine nulls_skip (nulls_skip (nulls_cons (nulls_cons (nulls_cons (nulls_cons (nulls_cons (nulls_cons
      nulls_nil ?_) ?_) ?_) ?_) ?_) ?_) ?_) (text _) <;>
      first | exact serOpt_null u32 | exact serOpt_null text | exact serOpt_null (by simp) | skip
    cases r.tokenType; simp [AccessTokenType.ser]
  · refine nulls_skip (nulls_cons (nulls_cons (nulls_cons (nulls_cons nulls_nil ?_) ?_) ?_) ?_) (text _)
    · exact serOpt_null (by simp)
    · exact serOpt_null text
    · exact serOpt_null text
    · exact serOpt_null (by intro c; cases c <;> simp [CredentialFormatProfileOrEncoded.ser])
  · unfold CredentialIssuerMetadata.ser
    rw [hm]
    exact nulls_skip (nulls_cons (nulls_skip (nulls_cons (nulls_skip nulls_nil (by simp [serVec]))
      (serOpt_null text)) (text _)) (serOpt_null text)) (text _)
  · exact flat _ _ _ (nulls_cons (nulls_cons (nulls_cons (nulls_cons nulls_nil
      (serOpt_null (by simp [serVec]))) (serOpt_null (by simp [serVec])))
      (serOpt_null (by simp [serVec]))) (serOpt_null text))
  · exact nulls_skip (nulls_cons (nulls_cons (nulls_cons (nulls_cons (nulls_cons nulls_nil
      (serOpt_null text)) (serOpt_null text)) (serOpt_null text))
      (serOpt_null (by simp [DisplayLogo.ser]))) (serOpt_null text)) (text _)
  · exact nulls_cons (nulls_cons nulls_nil (serOpt_null text)) (serOpt_null text)
  · exact nulls_cons nulls_nil (serOpt_null text)
  · exact flat _ _ _ (nulls_cons nulls_nil (serOpt_null (by simp [CredentialRequestProof.ser])))

/-- C93 does not hold. -/
theorem C93_refuted : ¬ C93_statement := by
  intro h
  obtain ⟨kvs, h1, h2⟩ := h.2.2.2.2.2.2.1 ⟨none⟩
  cases h1
  exact h2 _ (List.mem_cons_self ..)

example : Json.print (AccessTokenSuccessResponse.ser ⟨str! "t", .bearer, some 60, none, none, none, none, none⟩)
    = str! "{\"access_token\":\"t\",\"token_type\":\"Bearer\",\"expires_in\":60,\"scope\":null,\"c_nonce\":null,\"c_nonce_expires_in\":null,\"authorization_pending\":null,\"interval\":null}" := by
  decide +kernel

/-! ### C94 -/

/-- C94 in full: a credential that validates has, for each claim, at most one display object per language,
as types/credential.rs:152-154 says. -/
def C94_statement : Prop := ∀ c : CredentialFormatProfile, c.validate = .ok () →
  ∀ s ∈ claimsOf c, DistinctLanguages (claimLanguages s)

/-- C94 is violated by all credentials: any display objects pass, in credentials and in metadata. -/
theorem C94_any_claims (c : CredentialFormatProfile) (m : CredentialIssuerMetadata)
    (h : m.validate = .ok ()) :
    c.validate = .ok () ∧
    { m with credentialsSupported := m.credentialsSupported.map fun (s : CredentialSupported) =>
        { s with format := c } }.validate = .ok () := by
  refine ⟨rfl, ?_⟩
  rw [(C09_validate_iff _).1] at h ⊢
  intro i j a b id ha hb hia hib
  simp only [List.getElem?_map, Option.map_eq_some_iff] at ha hb
  obtain ⟨a', ha', rfl⟩ := ha
  obtain ⟨b', hb', rfl⟩ := hb
  exact h i j a' b' id ha' hb' hia hib

example : Ex.metadata.validate = .ok () := (C09_validate_iff _).1.2 Ex.distinct_metadata

/-- C94 does not hold. -/
theorem C94_refuted : ¬ C94_statement := by
  intro h
  have := h (.msoMdoc [] (some [([], ⟨none, none, some [⟨none, some (str! "en")⟩, ⟨none, some (str! "en")⟩]⟩)])
    none) rfl _ (List.mem_singleton.2 rfl) 0 1 (str! "en") rfl rfl
  cases this

/-- C94, partial: the languages survive, in order, in what is written, so that the reader can check them.
Missing: the check. -/
theorem C94_languages_written_partial (c : CredentialFormatProfile) (h : RustCredential c) :
    ∃ c', CredentialFormatProfile.de false c.ser = some c' ∧
      (claimsOf c').map claimLanguages = (claimsOf c).map claimLanguages :=
  ⟨c, CredentialFormatProfile.de_ser false c h, rfl⟩

/-! ### C95 -/

/-- C95 in full: in metadata that validates, binding methods that are DIDs are a prefix `did:` and the name
of a method (types/credential_issuer_metadata.rs:64-71). -/
def C95_statement : Prop := ∀ m : CredentialIssuerMetadata, m.validate = .ok () →
  ∀ c ∈ m.credentialsSupported, ∀ l ∈ c.cryptographicBindingMethodsSupported, ∀ s ∈ l,
    ClaimsDid s → IsDidMethod s

/-- C95 is violated by all metadata: any binding methods pass. -/
theorem C95_any_method (m : CredentialIssuerMetadata) (methods : Option (List Str))
    (h : m.validate = .ok ()) :
    { m with credentialsSupported := m.credentialsSupported.map fun (s : CredentialSupported) =>
        { s with cryptographicBindingMethodsSupported := methods } }.validate = .ok () := by
  rw [(C09_validate_iff _).1] at h ⊢
  intro i j a b id ha hb hia hib
  simp only [List.getElem?_map, Option.map_eq_some_iff] at ha hb
  obtain ⟨a', ha', rfl⟩ := ha
  obtain ⟨b', hb', rfl⟩ := hb
  exact h i j a' b' id ha' hb' hia hib

/-- C95 does not hold. -/
theorem C95_refuted : ¬ C95_statement := by
  intro h
  have h1 := C95_any_method Ex.metadata (some [str! "did:example:123"])
    ((C09_validate_iff _).1.2 Ex.distinct_metadata)
  have hne : ∃ c, c ∈ Ex.metadata.credentialsSupported := ⟨_, List.mem_cons_self ..⟩
  obtain ⟨c, hc⟩ := hne
  obtain ⟨name, e, hn⟩ := h _ h1 { c with cryptographicBindingMethodsSupported := some [str! "did:example:123"] }
    (List.mem_map_of_mem hc) _ rfl _ (List.mem_singleton.2 rfl) ⟨str! "example:123", rfl⟩
  have e' : name = str! "example:123" := (List.append_cancel_left (as := str! "did:") e).symm
  subst e'
  exact absurd (hn ':' (by decide)) (by decide)

/-- C95, partial: the methods survive in what is written, in order, under a misspelt name (see C48).
Missing: the check. -/
theorem C95_methods_written_partial (c : CredentialSupported) (h : RustCredential c.format) :
    ∃ c', CredentialSupported.de c.ser = some c' ∧
      c'.cryptographicBindingMethodsSupported = c.cryptographicBindingMethodsSupported :=
  ⟨c, CredentialSupported.de_ser c h, rfl⟩

example : IsDidMethod (str! "did:example") := ⟨str! "example", rfl, by decide⟩
example : ¬ IsDidMethod (str! "did:Example") := by
  rintro ⟨name, e, hn⟩
  have e' : name = str! "Example" := (List.append_cancel_left (as := str! "did:") e).symm
  subst e'
  exact absurd (hn 'E' (by decide)) (by decide)

/-! ### C62 -/

/-- C62. The description of an expired nonce, and the details, name both instants: each text denotes
its instant. -/
theorem C62_expired_instants (x : Ext) (now : Time) (m : CredentialIssuerMetadata) (r : CredentialRequest)
    (offer : Option CredentialOffer) (asm : Option AuthorizationServerMetadata)
    (doc : Option (withChrono x).Doc)
    (options : Option EvaluateCredentialRequestOptions) (c : CNonceOptions) (hc : Configured m offer asm)
    (ho : nonceOptions options = some c) (hv : Time.Valid (nonceExpiry c)) (hn : Time.Valid now)
    (hl : nonceExpiry c < now) :
    ∃ i a b a' b', reportOf (·.information (withChrono x))
        (evaluateCredentialRequest (withChrono x) now m r offer asm doc options) = some i ∧ i.code = 111 ∧
      i.description = str! "c_nonce expires at " ++ a ++ str! " which is before " ++ b ∧
      InstantText a (nonceExpiry c) ∧ InstantText b now ∧
      Details i [(str! "now", .str b'), (str! "expiry_timestamp", .str a')] ∧
      InstantText a' (nonceExpiry c) ∧ InstantText b' now := by
  obtain ⟨i, h1, h2, h3, h4⟩ := C62_expired (withChrono x) now m r offer asm doc options c hc ho hv.2 hl
  exact ⟨i, _, _, _, _, h1, h2, h3, (C74_displayed _ hv).1, (C74_displayed _ hn).1, h4,
    (C74_exact _ _).1 (Chrono.parse_show _ hv), (C74_exact _ _).1 (Chrono.parse_show _ hn)⟩

example : ∃ i a b, reportOf (·.information (withChrono Ex.ext))
    (evaluateCredentialRequest (withChrono Ex.ext) 101000000000 Ex.metadata Ex.request
      (some Ex.pinOffer) none none (some ⟨some ⟨100, str! "nonce", 0⟩, none⟩)) = some i ∧
    i.description = str! "c_nonce expires at " ++ a ++ str! " which is before " ++ b ∧
    InstantText a 100000000000 := by
  obtain ⟨i, a, b, -, -, h, -, hd, ha, -⟩ := C62_expired_instants Ex.ext 101000000000 Ex.metadata Ex.request
    (some Ex.pinOffer) none none (some ⟨some ⟨100, str! "nonce", 0⟩, none⟩) ⟨100, str! "nonce", 0⟩
    ⟨Ex.distinct_metadata, by simp, rfl⟩ rfl (by unfold Time.Valid; decide +kernel)
    (by unfold Time.Valid; decide +kernel) (by decide +kernel)
  exact ⟨i, a, b, h, hd, ha⟩
example : Chrono.dispTime 100000000000 = str! "1970-01-01 00:01:40 UTC" := by decide +kernel

/-- C94: the languages of a claim. -/
example : ∃ c', CredentialFormatProfile.de false (CredentialFormatProfile.ser (.msoMdoc (str! "d")
      (some [(str! "a", ⟨none, none, some [⟨some (str! "A"), some (str! "en")⟩, ⟨none, some (str! "de")⟩]⟩)]) none)) = some c' ∧
    (claimsOf c').map claimLanguages = (claimsOf (.msoMdoc (str! "d")
      (some [(str! "a", ⟨none, none, some [⟨some (str! "A"), some (str! "en")⟩, ⟨none, some (str! "de")⟩]⟩)]) none)).map
        claimLanguages :=
  C94_languages_written_partial _ (by simp [RustCredential, UniqueKeys])
example (x : Ext) : ∃ a s, serPair AccessTokenSuccessResponse.ser (fun t => .str ((withChrono x).showTime t))
      (⟨str! "t", .bearer, some 60, none, none, none, none, none⟩, 1536959950000000000) = .arr [a, .str s] ∧
    TokenResponseDoc a ⟨str! "t", .bearer, some 60, none, none, none, none, none⟩ ∧ InstantText s 1536959950000000000 :=
  C90_created x (⟨str! "t", .bearer, some 60, none, none, none, none, none⟩, 1536959950000000000)
    (by unfold Time.Valid; decide +kernel)

end Oid4vci
