import Verif.Spec.Documented
import Verif.Props.Documents
import Verif.Props.Response
import Verif.Props.Reject

/-!
Promises of further doc comments: C75 token type, C76 PINs, C77 formats in offers, C78 expired nonces in
responses, C79 offers without grants, C80 endpoints, C81 languages, C82 nested claims, C83 algorithm and
key, C84 supported keys, C85 keys in the header, C86 pre-evaluation, C87 nonce and lifetime, C88 errors
of each operation.
-/

namespace Oid4vci

open Spec Serde CredentialIssuer

/-! ### C75 -/

/-- C75 in full: the token type is read in every spelling. -/
def C75_statement : Prop := ∀ s : Str, EqFold s (str! "Bearer") →
  AccessTokenType.tryFrom s = .ok .bearer ∧ AccessTokenType.de (.str s) = some .bearer

/-- C75, partial: one spelling is read. Missing: all others (rejected, see
`C75_other_spelling_rejected`). -/
theorem C75_exact_partial (s : Str) :
    (AccessTokenType.tryFrom s = .ok .bearer ↔ s = str! "Bearer") ∧
    (AccessTokenType.de (.str s) = some .bearer ↔ s = str! "Bearer") := by
  refine ⟨(C39_token_type .bearer s).2, ?_⟩
  rw [tokenType_iff]
  simp [TokenTypeDoc]

/-- C75 is violated by every other spelling: neither the string nor any token response with it is
read. -/
theorem C75_other_spelling_rejected (s : Str) (hs : s ≠ str! "Bearer") :
    (∃ e, AccessTokenType.tryFrom s = .err e) ∧ AccessTokenType.de (.str s) = none ∧
    ∀ kvs, Sole kvs (str! "token_type") (.str s) → AccessTokenSuccessResponse.de (.obj kvs) = none := by
  refine ⟨⟨_, by unfold AccessTokenType.tryFrom; rw [if_neg hs]⟩, ?_, ?_⟩
  · simp [AccessTokenType.de, hs]
  · intro kvs hk
    rw [Option.eq_none_iff_forall_ne_some]
    intro r hr
    obtain ⟨_, type, _, _, _, _, _, _, hsl, -, ⟨v, rfl, hv⟩, -⟩ := (C63_tokenResponse _ _).1 hr
    cases hsl with
    | object _ _ hf =>
      cases hf with
      | cons _ hf =>
        cases hf with
        | cons h2 _ =>
          have := sole_mem hk h2.1
          subst this
          rcases hv with hv | hv
          · exact hs (by simpa using hv)
          · cases hv

/-- C75 does not hold: `bearer` is rejected. -/
theorem C75_refuted : ¬ C75_statement := by
  intro h
  have h1 := (h (str! "bearer") (by
    refine .cons (.inr (.inr ?_)) (.cons (.inl rfl) (.cons (.inl rfl) (.cons (.inl rfl)
      (.cons (.inl rfl) (.cons (.inl rfl) .nil)))))
    decide +kernel)).2
  rw [(C75_exact_partial _).2] at h1
  exact absurd h1 (by decide +kernel)

example : AccessTokenType.tryFrom (str! "Bearer") = .ok .bearer := by decide +kernel

/-! ### C76 -/

/-- C76 in full: every PIN is read, and different PINs are read as different values. -/
def C76_statement : Prop := ∀ code : Str, ∃ f : Str → UInt64,
  (∀ p q, IsPin p → IsPin q → f p = f q → p = q) ∧
  ∀ p, IsPin p → GrantType.de (pinGrant code (.str p)) = some (.preAuthorizedCodeFlow code (some (f p)))

theorem pinGrant_iff (code : Str) (pin : Json) (g : GrantType) :
    GrantType.de (pinGrant code pin) = some g ↔
      ∃ p, g = .preAuthorizedCodeFlow code p ∧ opt Serde.u64 (some pin) = some p := by
  have h : GrantType.de (pinGrant code pin) =
      (opt Serde.u64 (some pin)).bind fun p => some (.preAuthorizedCodeFlow code p) := by rfl
  rw [h]
  cases opt Serde.u64 (some pin) <;> simp [eq_comm]

/-- C76, partial: a PIN given as a number is read as this number. Missing: PINs as strings, and with
them PINs with leading zeros (see `C76_string_rejected`). -/
theorem C76_number_partial (code : Str) (n : UInt64) :
    GrantType.de (pinGrant code (.num n.toNat)) = some (.preAuthorizedCodeFlow code (some n)) :=
  (pinGrant_iff ..).2 ⟨_, rfl, (opt_iff u64_iff rfl).2 ⟨_, rfl, rfl⟩⟩

/-- C76 is violated by every string: no pre-authorized grant with a string as PIN is read, whatever
else the document has. -/
theorem C76_string_rejected (kvs : List (Str × Json)) (pin code : Str) (p : Option UInt64)
    (hk : (str! "user_pin", .str pin) ∈ kvs) :
    GrantType.de (.obj kvs) ≠ some (.preAuthorizedCodeFlow code p) := by
  intro h
  obtain ⟨t, content, ht, -, a, b, hs, -, hb⟩ := (C63_grant _ _).1 h
  cases ht with
  | object _ _ _ =>
    cases hs with
    | object _ _ hf =>
      cases hf with
      | cons _ hf =>
        cases hf with
        | cons h2 _ =>
          have hm : (str! "user_pin", Json.str pin) ∈
              kvs.filter fun p => decide (p.1 ≠ str! "grant_type") :=
            List.mem_filter.2 ⟨hk, decide_eq_true (show str! "user_pin" ≠ str! "grant_type" by decide)⟩
          cases b with
          | none => exact h2 _ hm
          | some v =>
            have := sole_mem h2 hm
            subst this
            cases p with
            | none => rcases hb with hb | hb <;> cases hb
            | some n => obtain ⟨_, h3, h4⟩ := hb; cases h3; cases h4

/-- C76 does not hold. -/
theorem C76_refuted : ¬ C76_statement := by
  intro h
  obtain ⟨f, -, hf⟩ := h []
  exact C76_string_rejected _ (str! "0123") _ _ (by simp)
    (hf (str! "0123") ⟨by decide +kernel, by decide +kernel, by decide +kernel⟩)

/-! ### C77 -/

/-- C77 in full: `create_offer` fails in each of the documented cases. -/
def C77_statement : Prop := ∀ (m : CredentialIssuerMetadata) (cs : CredentialOrIds)
  (endpoint : Option Str) (a : Option AuthorizedCodeFlow) (p : Option PreAuthorizedCodeFlow),
  (a ≠ none ∨ (∃ id, .credentialId id ∈ cs ∧ ¬ KnownId m id) ∨
    ∃ c, .credential c ∈ cs ∧ formatName c ≠ str! "ldp_vc") →
  ∃ e, createOffer m cs endpoint a p = .err e

/-- C77, partial: it fails in the first two. Missing: formats other than `ldp_vc` (offered, see
`C77_any_format_offered`). -/
theorem C77_documented_errors_partial (m : CredentialIssuerMetadata) (cs : CredentialOrIds)
    (endpoint : Option Str) (a : Option AuthorizedCodeFlow) (p : Option PreAuthorizedCodeFlow)
    (h : a ≠ none ∨ ∃ id, .credentialId id ∈ cs ∧ ¬ KnownId m id) :
    ∃ e, createOffer m cs endpoint a p = .err e := by
  have hno : ¬ ∃ r, createOffer m cs endpoint a p = .ok r := by
    rw [(C12_create_offer ..).1]
    rintro ⟨-, ha, hr⟩
    rcases h with h | ⟨id, hid, hk⟩
    · exact h ha
    · exact hk (hr _ hid)
  cases hc : createOffer m cs endpoint a p with
  | ok r => exact absurd ⟨r, hc⟩ hno
  | err e => exact ⟨e, rfl⟩
  | panic => exact absurd hc (C46_others_partial.2.2.1 m cs endpoint a p)

/-- An unknown id. -/
example : ∃ e, createOffer Ex.metadata [.credentialId (str! "unknown")] none none none = .err e :=
  C77_documented_errors_partial _ _ _ _ _ (.inr ⟨str! "unknown", by simp, by
    rintro ⟨e, he, h⟩
    revert h
    revert e
    decide +kernel⟩)

/-- C77 is violated by every inline credential: it is offered in any format, by any valid metadata. -/
theorem C77_any_format_offered (m : CredentialIssuerMetadata) (cs : List CredentialFormatProfile)
    (endpoint : Option Str) (p : Option PreAuthorizedCodeFlow)
    (hm : DistinctIds m.credentialsSupported) :
    ∃ r, createOffer m (cs.map .credential) endpoint none p = .ok r :=
  (C12_create_offer ..).1.2 ⟨hm, rfl, by simp [Resolvable]⟩

/-- C77 does not hold: `mso_mdoc` is offered. -/
theorem C77_refuted : ¬ C77_statement := by
  intro h
  obtain ⟨r, hr⟩ := C77_any_format_offered Ex.metadata [Ex.mdoc] none none Ex.distinct_metadata
  obtain ⟨e, he⟩ := h Ex.metadata ([Ex.mdoc].map .credential) none none none
    (.inr (.inr ⟨Ex.mdoc, by simp, by decide +kernel⟩))
  rw [hr] at he
  cases he

/-! ### C78 -/

/-- C78 in full: a nonce that lives for no time is refused. -/
def C78_statement : Prop := ∀ (x : Ext) (now : Time) (r : CredentialRequest)
  (c : Option CredentialOrAcceptanceToken) (nonce : Str),
  ∃ e, createCredentialSuccessResponse x now r c (some ⟨nonce, some 0⟩) = .err e

/-- C78, partial: the other documented error occurs. Missing: the nonce, which has no influence on
success (see `C78_nonce_unchecked`). -/
theorem C78_invalid_request_partial (x : Ext) (now : Time) (r : CredentialRequest)
    (c : Option CredentialOrAcceptanceToken) (nonce : Option CNonce) (e : ValidationError)
    (h : r.validate x = .err e) :
    createCredentialSuccessResponse x now r c nonce = .err (.validationError e) := by
  unfold createCredentialSuccessResponse
  rw [h]
  rfl

/-- A proof of another type. -/
example : createCredentialSuccessResponse Ex.ext 0 ⟨Ex.mdoc, some ⟨str! "cwt", []⟩⟩ (some (.credential Ex.mdoc)) none
    = .err (.validationError (.any (str! "`proof_type` MUST of of value `JWT`"))) :=
  C78_invalid_request_partial _ _ _ _ _ _ (by decide +kernel)

/-- C78 is violated by every valid request: whatever the nonce and its lifetime, there is a
response, which carries them. -/
theorem C78_nonce_unchecked (x : Ext) (now : Time) (r : CredentialRequest)
    (c : Option CredentialOrAcceptanceToken) (nonce : Option CNonce) (h : r.validate x = .ok ()) :
    ∃ resp, createCredentialSuccessResponse x now r c nonce = .ok (resp, now) ∧
      resp.cNonce = nonce.map (·.cNonce) ∧ resp.cNonceExpiresIn = nonce.bind (·.cNonceExpiresIn) := by
  cases c with
  | none => exact ⟨⟨formatName r.format, none, none, _, _⟩,
      success_eq_ok.2 ⟨h, rfl, rfl, rfl, rfl, rfl, rfl⟩, rfl, rfl⟩
  | some c =>
    cases c with
    | acceptanceToken t => exact ⟨⟨formatName r.format, none, some t, _, _⟩,
        success_eq_ok.2 ⟨h, rfl, rfl, rfl, rfl, rfl, rfl⟩, rfl, rfl⟩
    | credential c =>
      have ⟨e, he⟩ : ∃ e, CredentialFormatProfileOrEncoded.tryFrom c = .ok e := by
        cases c <;> exact ⟨_, rfl⟩
      exact ⟨⟨formatName r.format, some e, none, _, _⟩,
        success_eq_ok.2 ⟨h, rfl, rfl, rfl, rfl, rfl, e, he, rfl⟩, rfl, rfl⟩

/-- C78 does not hold. -/
theorem C78_refuted : ¬ C78_statement := by
  intro h
  obtain ⟨resp, hr, -⟩ := C78_nonce_unchecked Ex.ext 0 Ex.request none (some ⟨[], some 0⟩)
    Ex.request_valid
  obtain ⟨e, he⟩ := h Ex.ext 0 Ex.request none []
  rw [hr] at he
  cases he

example : (⟨Ex.mdoc, some ⟨str! "cwt", []⟩⟩ : CredentialRequest).validate Ex.ext =
    .err (.any (str! "`proof_type` MUST of of value `JWT`")) := by decide +kernel

/-! ### C79 -/

/-- C79 in full: an offer without `grants`, or with empty ones, is read as an offer that names no
flow. -/
def C79_statement : Prop := ∀ (kvs : List (Str × Json)) (issuer : Str) (creds : Json)
  (cs : CredentialOrIds), Sole kvs (str! "credential_issuer") (.str issuer) →
  Sole kvs (str! "credentials") creds → ListOf EntryDoc creds cs →
  (Absent kvs (str! "grants") ∨ Sole kvs (str! "grants") (.obj [])) →
  CredentialOffer.de (.obj kvs) = some ⟨issuer, cs, ⟨none, none⟩⟩

/-- C79, partial: empty grants. Missing: absent grants (rejected, see `C79_absent_rejected`). -/
theorem C79_empty_partial (kvs : List (Str × Json)) (issuer : Str) (creds : Json)
    (cs : CredentialOrIds) (h1 : Sole kvs (str! "credential_issuer") (.str issuer))
    (h2 : Sole kvs (str! "credentials") creds) (h3 : ListOf EntryDoc creds cs)
    (h4 : Sole kvs (str! "grants") (.obj [])) :
    CredentialOffer.de (.obj kvs) = some ⟨issuer, cs, ⟨none, none⟩⟩ := by
  refine (C63_offer _ _).2 ⟨_, _, _, .object _ [some (.str issuer), some creds, some (.obj [])]
    (.cons h1 (.cons h2 (.cons h4 .nil))), ⟨_, rfl, rfl⟩, ⟨_, rfl, h3⟩, _, rfl, none, none, ?_, .inl rfl,
    .inl rfl⟩
  exact .object _ _ (.cons (fun _ => by simp) (.cons (fun _ => by simp) .nil))

/-- An offer of one id. -/
example : CredentialOffer.de (.obj [(str! "grants", .obj []), (str! "credentials", .arr [.str (str! "a")]),
    (str! "credential_issuer", .str (str! "https://i"))])
    = some ⟨str! "https://i", [.credentialId (str! "a")], ⟨none, none⟩⟩ :=
  C79_empty_partial _ _ (.arr [.str (str! "a")]) _ ⟨by simp, by decide⟩ ⟨by simp, by decide⟩
    ⟨_, rfl, .cons rfl .nil⟩ ⟨by simp, by decide⟩

/-- C79 is violated by every offer without grants: none is read. -/
theorem C79_absent_rejected (kvs : List (Str × Json)) (h : Absent kvs (str! "grants")) :
    CredentialOffer.de (.obj kvs) = none := by
  rw [Option.eq_none_iff_forall_ne_some]
  intro o ho
  obtain ⟨_, _, grants, hs, -, -, v, rfl, -⟩ := (C63_offer _ _).1 ho
  cases hs with
  | object _ _ hf =>
    cases hf with
    | cons _ hf =>
      cases hf with
      | cons _ hf =>
        cases hf with
        | cons h3 _ => exact h _ h3.1

/-- C79 does not hold. -/
theorem C79_refuted : ¬ C79_statement := by
  intro h
  have h1 := h [(str! "credential_issuer", .str []), (str! "credentials", .arr [])] [] (.arr []) []
    ⟨by simp, by decide +kernel⟩ ⟨by simp, by decide +kernel⟩ ⟨_, rfl, .nil⟩ (.inl (by simp [Absent]))
  rw [C79_absent_rejected _ (by simp [Absent])] at h1
  cases h1

example : CredentialOffer.de (.obj [(str! "credential_issuer", .str (str! "https://i")),
    (str! "grants", .obj []), (str! "credentials", .arr [.str (str! "a")])])
    = some ⟨str! "https://i", [.credentialId (str! "a")], ⟨none, none⟩⟩ := by decide +kernel

/-! ### C80 -/

/-- C80 in full: metadata that validates has endpoints with the scheme `https`. -/
def C80_statement : Prop := ∀ m : CredentialIssuerMetadata, m.validate = .ok () →
  IsHttps m.credentialEndpoint ∧ ∀ u ∈ m.batchCredentialEndpoint, IsHttps u

/-- C80 is violated by all metadata: any endpoints pass. -/
theorem C80_any_endpoint (m : CredentialIssuerMetadata) (u : Str) (b : Option Str)
    (h : m.validate = .ok ()) :
    { m with credentialEndpoint := u, batchCredentialEndpoint := b }.validate = .ok () := by
  rw [(C09_validate_iff _).1] at h ⊢
  exact h

/-- An endpoint without TLS. -/
example : { Ex.metadata with credentialEndpoint := str! "http://issuer", batchCredentialEndpoint := none }.validate
    = .ok () :=
  C80_any_endpoint Ex.metadata _ _ ((metadata_validate_iff _).2 Ex.distinct_metadata)

/-- C80 does not hold: the empty string passes. -/
theorem C80_refuted : ¬ C80_statement := by
  intro h
  obtain ⟨⟨r, hr⟩, -⟩ := h .default rfl
  cases hr

/-- C80, partial: metadata cannot do without a credential endpoint, and the endpoints are those in the
document. Missing: the check of the scheme. -/
theorem C80_endpoints_read_partial (kvs : List (Str × Json)) (m : CredentialIssuerMetadata)
    (h : CredentialIssuerMetadata.de (.obj kvs) = some m) :
    Sole kvs (str! "credential_endpoint") (.str m.credentialEndpoint) ∧
    ∀ u ∈ m.batchCredentialEndpoint, Sole kvs (str! "batch_credential_endpoint") (.str u) := by
  obtain ⟨kvs', _, _, endpoint, batch, _, hk, hf, -, -, ⟨v, rfl, hv⟩, hb, -⟩ := (C63_metadata _ _).1 h
  cases hk
  cases hf with
  | cons _ hf =>
    cases hf with
    | cons _ hf =>
      cases hf with
      | cons h3 hf =>
        cases hf with
        | cons h4 _ =>
          refine ⟨?_, ?_⟩
          · rw [hv] at h3; exact h3
          · intro u hu
            rw [Option.mem_def] at hu
            rw [hu] at hb
            obtain ⟨w, rfl, hw⟩ := hb
            rw [hw] at h4
            exact h4

example : IsHttps (str! "https://issuer.example/credential") := ⟨_, rfl⟩

/-! ### C81 -/

/-- C81 in full: metadata that validates has, for each supported credential, at most one display
object per language. -/
def C81_statement : Prop := ∀ m : CredentialIssuerMetadata, m.validate = .ok () →
  ∀ c ∈ m.credentialsSupported, DistinctLanguages (displayLanguages c)

/-- C81 is violated by all metadata: any display objects pass. -/
theorem C81_any_display (m : CredentialIssuerMetadata) (ds : Option (List DisplayProperties))
    (h : m.validate = .ok ()) :
    { m with credentialsSupported :=
        m.credentialsSupported.map fun (c : CredentialSupported) =>
          { c with display := ds } }.validate = .ok () := by
  rw [(C09_validate_iff _).1] at h ⊢
  intro i j a b id ha hb hia hib
  simp only [List.getElem?_map, Option.map_eq_some_iff] at ha hb
  obtain ⟨a', ha', rfl⟩ := ha
  obtain ⟨b', hb', rfl⟩ := hb
  exact h i j a' b' id ha' hb' hia hib

/-- C81 does not hold. -/
theorem C81_refuted : ¬ C81_statement := by
  intro h
  have h1 := C81_any_display Ex.metadata (some [⟨[], some (str! "en"), none, none, none, none⟩,
    ⟨[], some (str! "en"), none, none, none, none⟩]) ((C09_validate_iff _).1.2 Ex.distinct_metadata)
  have hne : ∃ c, c ∈ Ex.metadata.credentialsSupported := ⟨_, List.mem_cons_self ..⟩
  obtain ⟨c, hc⟩ := hne
  have := h _ h1 { c with display := some [⟨[], some (str! "en"), none, none, none, none⟩,
    ⟨[], some (str! "en"), none, none, none, none⟩] } (List.mem_map_of_mem hc)
    0 1 (str! "en") rfl rfl
  cases this

/-- C81, partial: the languages survive, in order, in what is written, so that the reader of the
metadata can check them. Missing: the check. -/
theorem C81_languages_written_partial (c : CredentialSupported) (h : RustCredential c.format) :
    ∃ c', CredentialSupported.de c.ser = some c' ∧ displayLanguages c' = displayLanguages c :=
  ⟨c, CredentialSupported.de_ser c h, rfl⟩

example : DistinctLanguages [some (str! "en"), none, some (str! "de"), none] := by
  intro i j l hi hj
  match i, j with
  | 0, 0 | 2, 2 => rfl
  | 0, 2 => simp at hi hj; rw [← hi] at hj; exact absurd hj (by decide)
  | 2, 0 => simp at hi hj; rw [← hi] at hj; exact absurd hj (by decide)
  | 1, _ => simp at hi
  | 3, _ => simp at hi
  | _, 1 => simp at hj
  | _, 3 => simp at hj
  | n + 4, _ => simp at hi
  | _, n + 4 => simp at hj

/-! ### C82 -/

/-- C82 in full: the claims below a namespace survive reading and writing: documents that differ in a
claim's name are read as different credentials. -/
def C82_statement : Prop := ∀ (doctype ns a b : Str) (va vb : Json) (c : CredentialFormatProfile),
  a ≠ b →
  CredentialFormatProfile.de false (.obj [(str! "format", .str (str! "mso_mdoc")),
    (str! "doctype", .str doctype), (str! "claims", .obj [(ns, .obj [(a, va)])])]) = some c →
  CredentialFormatProfile.de false (.obj [(str! "format", .str (str! "mso_mdoc")),
    (str! "doctype", .str doctype), (str! "claims", .obj [(ns, .obj [(b, vb)])])]) ≠ some c

/-- C82 is violated by all claims below a namespace, except those named like the description of a
claim: they are dropped. -/
theorem C82_nested_dropped (kvs : List (Str × Json))
    (h : ∀ p ∈ kvs, p.1 ∉ [str! "mandatory", str! "valueType", str! "display"]) :
    CredentialSubject.de (.obj kvs) = some ⟨none, none, none⟩ := by
  have ha : ∀ k ∈ [str! "mandatory", str! "valueType", str! "display"], Absent kvs k :=
    fun k hk v hv => h _ hv hk
  exact (C63_subject _ _).2 ⟨none, none, none, .object _ _ (.cons (ha _ (by simp))
    (.cons (ha _ (by simp)) (.cons (ha _ (by simp)) .nil))), .inl rfl, .inl rfl, .inl rfl⟩

/-- A namespace of ISO 18013-5 with one claim. -/
example : CredentialSubject.de (.obj [(str! "given_name", .obj [(str! "mandatory", .bool true)])])
    = some ⟨none, none, none⟩ :=
  C82_nested_dropped _ (by simp)

/-- C82 does not hold. -/
theorem C82_refuted : ¬ C82_statement := by
  intro h
  exact h (str! "d") (str! "ns") (str! "given_name") (str! "age") (.obj []) (.obj [])
    (.msoMdoc (str! "d") (some [(str! "ns", ⟨none, none, none⟩)]) none) (by decide +kernel)
    (by decide +kernel) (by decide +kernel)

/-- C82, partial: the namespaces, the keys of `claims`, survive with their order. Missing: the claims
below them. -/
theorem C82_namespaces_partial (doctype : Str) (claims : HMap CredentialSubject)
    (order : Option (List Str)) (hu : UniqueKeys claims) :
    ∃ claims', CredentialFormatProfile.de false
        (CredentialFormatProfile.msoMdoc doctype (some claims) order).ser
      = some (.msoMdoc doctype (some claims') order) ∧ claims'.map Prod.fst = claims.map Prod.fst :=
  ⟨claims, CredentialFormatProfile.de_ser false _ (by simpa [RustCredential] using hu), rfl⟩

example : UniqueKeys [(str! "org.iso.18013.5.1", (⟨some true, none, none⟩ : CredentialSubject)),
    (str! "org.iso.18013.5.1.aamva", ⟨none, none, none⟩)] := by simp [UniqueKeys]

/-! ### C83 -/

/-- C83 in full: the algorithm handed to the caller is one for the key handed to the caller. -/
def C83_statement : Prop := ∀ (x : Ext) (now : Time) (m : CredentialIssuerMetadata)
  (r : CredentialRequest) (offer : Option CredentialOffer) (asm : Option AuthorizationServerMetadata)
  (doc : Option x.Doc) (options : Option EvaluateCredentialRequestOptions)
  (resp : CredentialIssuerEvaluateRequestResponse) (pop : ProofOfPossession)
  (p : CredentialRequestProof) (jwt : ProofJwt) (k : Jwk),
  evaluateCredentialRequest x now m r offer asm doc options = .ok resp → r.proof = some p →
  ProofJwt.fromStr x p.jwt = .ok jwt → resp.proofOfPossession = some pop →
  HeaderKey x jwt.header doc k → UsedWith pop.algorithm k.params

section
variable (x : Ext) (now : Time) (m : CredentialIssuerMetadata) (r : CredentialRequest)
  (offer : Option CredentialOffer) (asm : Option AuthorizationServerMetadata) (doc : Option x.Doc)
  (options : Option EvaluateCredentialRequestOptions)

theorem keyResolved_key {x : Ext} {h : ProofJwtHeader} {doc : Option x.Doc} {did : Str} {key : Bytes}
    (hk : KeyResolved x h doc did key) : ∃ k, HeaderKey x h doc k ∧ KeyBytes k key := by
  obtain ⟨kid, url, d, vm, jwk, h1, h2, -, h4, h5, h6, h7⟩ := hk
  exact ⟨jwk, ⟨kid, url, d, vm, h1, h2, h4, h5, h6⟩, h7⟩

theorem headerKey_unique {x : Ext} {h : ProofJwtHeader} {doc : Option x.Doc} {k k' : Jwk}
    (hk : HeaderKey x h doc k) (hk' : HeaderKey x h doc k') : k = k' := by
  obtain ⟨kid, url, d, vm, h1, h2, h4, h5, h6⟩ := hk
  obtain ⟨kid', url', d', vm', h1', h2', h4', h5', h6'⟩ := hk'
  rw [h1] at h1'; cases h1'
  rw [h2] at h2'; cases h2'
  rw [h4] at h4'; cases h4'
  rw [h5] at h5'; cases h5'
  rw [h6] at h6'; cases h6'
  rfl

/-- C83 is violated by every accepted request: with any other algorithm in the header it is accepted
as well, and that algorithm is returned with the same key. -/
theorem C83_any_algorithm (resp : CredentialIssuerEvaluateRequestResponse)
    (p : CredentialRequestProof) (jwt : ProofJwt) (a : ProofJwtAlgorithm) (k : Jwk)
    (h : evaluateCredentialRequest x now m r offer asm doc options = .ok resp)
    (hp : r.proof = some p) (hj : ProofJwt.fromStr x p.jwt = .ok jwt) (ht : TimesOk x jwt.body)
    (hk : HeaderKey x jwt.header doc k) :
    ∃ resp' pop, evaluateCredentialRequest x now m { r with proof := some ⟨p.proofType,
        compact x { jwt.header with alg := a } jwt.body (some [])⟩ }
      offer asm doc options = .ok resp' ∧ resp'.proofOfPossession = some pop ∧ pop.algorithm = a ∧
      KeyBytes k pop.publicKey := by
  obtain ⟨resp', pop, he, hpop, halg⟩ :=
    C27_any_alg_accepted x now m r offer asm doc options resp p jwt a h hp hj ht
  obtain ⟨_, pop', -, hpop', -, hres⟩ := C25_key _ _ _ _ _ _ _ _ _ _ _ he rfl
    (fromStr_compact x { jwt.header with alg := a } jwt.body (some []) ht (by simp [NoDot]))
  rw [hpop] at hpop'; cases hpop'
  obtain ⟨k', hk', hb⟩ := keyResolved_key hres
  have : k' = k := headerKey_unique (h := { jwt.header with alg := a }) hk' hk
  subst this
  exact ⟨resp', pop, he, hpop, halg, hb⟩

/-- C83, partial: what is returned is the header's algorithm and the bytes of the key to which the
header refers. Missing: that one is for the other. -/
theorem C83_key_and_algorithm_partial (resp : CredentialIssuerEvaluateRequestResponse)
    (p : CredentialRequestProof) (jwt : ProofJwt)
    (h : evaluateCredentialRequest x now m r offer asm doc options = .ok resp)
    (hp : r.proof = some p) (hj : ProofJwt.fromStr x p.jwt = .ok jwt) :
    ∃ pop k, resp.proofOfPossession = some pop ∧ pop.algorithm = jwt.header.alg ∧
      HeaderKey x jwt.header doc k ∧ KeyBytes k pop.publicKey := by
  obtain ⟨_, pop, -, hpop, halg, hres⟩ := C25_key _ _ _ _ _ _ _ _ _ _ _ h hp hj
  obtain ⟨k, hk, hb⟩ := keyResolved_key hres
  exact ⟨pop, k, hpop, halg, hk, hb⟩

/-- An accepted request. -/
example : ∃ resp pop k, evaluateCredentialRequest Ex.ext 1000 Ex.metadata Ex.request (some Ex.pinOffer) none
    (some Ex.didDoc) Ex.options = .ok resp ∧ resp.proofOfPossession = some pop ∧ pop.algorithm = Ex.header.alg ∧
    HeaderKey Ex.ext Ex.header (some Ex.didDoc) k ∧ KeyBytes k pop.publicKey := by
  obtain ⟨resp, h⟩ := Ex.evaluates
  obtain ⟨pop, k, h1, h2, h3, h4⟩ := C83_key_and_algorithm_partial _ _ _ _ _ _ _ _ resp _ _ h rfl Ex.fromStr_request
  exact ⟨resp, pop, k, h, h1, h2, h3, h4⟩

end

/-- C83 does not hold: `HS256` is returned with the bytes of a public octet key pair. -/
theorem C83_refuted : ¬ C83_statement := by
  intro h
  obtain ⟨resp, he⟩ := Ex.evaluates
  have hk : HeaderKey Ex.ext Ex.header (some Ex.didDoc) ⟨none, .okp [1, 2, 3]⟩ :=
    ⟨_, _, _, _, rfl, rfl, rfl, rfl, rfl⟩
  obtain ⟨resp', pop, h', hpop, halg, -⟩ := C83_any_algorithm _ _ _ _ _ _ _ _ _ _ _ .HS256 _ he rfl
    Ex.fromStr_request Ex.timesOk_plainBody hk
  have := h _ _ _ _ _ _ _ _ _ _ _ _ _ h' rfl (fromStr_compact _ _ _ _ Ex.timesOk_plainBody
    (by simp [NoDot])) hpop hk
  rw [halg] at this
  cases this

/-! ### C84 -/

/-- C84 in full: only keys for `EdDSA` are turned into bytes. -/
def C84_statement : Prop := ∀ (k : Jwk) (b : Bytes), ProofJwtHeader.jwkToPublicKeyBytes k = .ok b →
  k.algorithm = some SsiAlg.edDSA

/-- C84 is violated by all octet key pairs: whatever their algorithm (`X25519` keys are for key
agreement), their bytes are returned. -/
theorem C84_any_okp (a : Option SsiAlg) (b : Bytes) :
    ProofJwtHeader.jwkToPublicKeyBytes ⟨a, .okp b⟩ = .ok b := rfl

/-- C84 does not hold. -/
theorem C84_refuted : ¬ C84_statement := by
  intro h
  have := h _ _ (C84_any_okp none [])
  cases this

/-- C84, partial: RSA and symmetric keys are never turned into bytes, elliptic curve keys only if they
name `EdDSA`; exactly. Missing: the algorithm of octet key pairs. -/
theorem C84_others_partial (k : Jwk) :
    ((∃ b, ProofJwtHeader.jwkToPublicKeyBytes k = .ok b) ↔
      (∃ b, k.params = .okp b) ∨ ∃ b, k.params = .ec (some b) ∧ k.algorithm = some SsiAlg.edDSA) ∧
    (k.params = .other → ∃ e, ProofJwtHeader.jwkToPublicKeyBytes k = .err e) := by
  obtain ⟨a, p⟩ := k
  have hd : SsiAlg.default ≠ SsiAlg.edDSA := by decide
  cases p with
  | okp b => simp [ProofJwtHeader.jwkToPublicKeyBytes]
  | other => simp [ProofJwtHeader.jwkToPublicKeyBytes]
  | ec c =>
    cases a with
    | none => simp [ProofJwtHeader.jwkToPublicKeyBytes, hd]
    | some a => by_cases ha : a = SsiAlg.edDSA <;> cases c <;>
        simp [ProofJwtHeader.jwkToPublicKeyBytes, ha, Res.okOr]

example : ProofJwtHeader.jwkToPublicKeyBytes ⟨some SsiAlg.edDSA, .ec (some [1])⟩ = .ok [1] := by
  decide +kernel

/-! ### C85 -/

/-- C85 in full: a header with a JWK in the form of RFC 7515 section 4.1.3, an object, or with
certificates in the form of section 4.1.6, an array, is read as a header with that key. -/
def C85_statement : Prop := ∀ (kvs : List (Str × Json)) (h : ProofJwtHeader),
  ProofJwtHeader.de (.obj kvs) = some h →
  ((∃ o, Sole kvs (str! "jwk") (.obj o)) ∨ ∃ a, Sole kvs (str! "x5c") (.arr a)) →
  h.additionalHeader ≠ none

/-- C85 is violated by all such headers: without a string under one of the names they are read as
headers without a key. -/
theorem C85_key_dropped (kvs : List (Str × Json)) (h : ProofJwtHeader)
    (hd : ProofJwtHeader.de (.obj kvs) = some h)
    (hk : ∀ k ∈ [str! "kid", str! "jwk", str! "x5c"], ∀ s, (k, .str s) ∉ kvs) :
    h.additionalHeader = none := by
  obtain ⟨kvs', _, he, -, -, -, hkey⟩ := (C63_header _ _).1 hd
  cases he
  rcases hkey with ⟨h1, -⟩ | ⟨before, k, v, after, rfl, -, hmem, hv⟩
  · exact h1
  · cases ha : h.additionalHeader with
    | none => rfl
    | some a =>
      rw [ha] at hv
      obtain ⟨s, rfl, -⟩ := hv
      exact absurd (by simp) (hk k hmem s)

/-- A JWK as an object. -/
example : ∃ h, ProofJwtHeader.de (.obj [(str! "typ", .str proofTyp), (str! "alg", .str (str! "ES256")),
    (str! "jwk", .obj [(str! "kty", .str (str! "EC"))])]) = some h ∧ h.additionalHeader = none :=
  ⟨⟨proofTyp, .ES256, none⟩, by decide +kernel, C85_key_dropped [(str! "typ", .str proofTyp),
    (str! "alg", .str (str! "ES256")), (str! "jwk", .obj [(str! "kty", .str (str! "EC"))])] _ (by decide +kernel)
    (by simp)⟩

/-- C85 does not hold. -/
theorem C85_refuted : ¬ C85_statement := by
  intro h
  refine h [(str! "typ", .str proofTyp), (str! "alg", .str (str! "EdDSA")),
    (str! "jwk", .obj [(str! "kty", .str (str! "OKP"))])] ⟨proofTyp, .EdDSA, none⟩
    (by decide +kernel) (.inl ⟨[(str! "kty", .str (str! "OKP"))], by simp, by decide +kernel⟩) rfl

/-- C85, partial: a key member that is a string is kept, under its own kind, if it is the only one.
Missing: the standard forms of `jwk` and `x5c`. -/
theorem C85_text_partial (kvs : List (Str × Json)) (h : ProofJwtHeader) (k s : Str)
    (a : ProofJwtAdditionalHeader) (ha : (k, a) ∈ keyOf s)
    (hd : ProofJwtHeader.de (.obj kvs) = some h) (hm : (k, .str s) ∈ kvs)
    (hone : ∀ p ∈ kvs, p.1 ∈ (keyOf []).map Prod.fst → p = (k, .str s)) :
    h.additionalHeader = some a := by
  obtain ⟨kvs', _, he, -, -, -, hkey⟩ := (C63_header _ _).1 hd
  cases he
  have hk : k ∈ (keyOf []).map Prod.fst := by
    simp only [keyOf, List.map_cons, List.map_nil, List.mem_cons, Prod.mk.injEq, List.not_mem_nil,
      or_false] at ha ⊢
    rcases ha with ha | ha | ha <;> simp [ha.1]
  rcases hkey with ⟨-, h1⟩ | ⟨before, k', v, after, rfl, -, hmem, hv⟩
  · exact absurd hk (h1 _ hm)
  · have heq := hone (k', v) (by simp) hmem
    cases heq
    cases hx : h.additionalHeader with
    | none => rw [hx] at hv; exact absurd rfl (hv s)
    | some b =>
      rw [hx] at hv
      obtain ⟨s', hs, hb⟩ := hv
      cases hs
      congr 1
      simp only [keyOf, List.mem_cons, Prod.mk.injEq, List.not_mem_nil, or_false] at ha hb
      rcases ha with ⟨rfl, rfl⟩ | ⟨rfl, rfl⟩ | ⟨rfl, rfl⟩ <;>
        rcases hb with ⟨h1, rfl⟩ | ⟨h1, rfl⟩ | ⟨h1, rfl⟩ <;>
        first | rfl | exact absurd h1 (by decide)

example : ProofJwtHeader.de (.obj [(str! "kid", .str (str! "did:a#k")), (str! "alg", .str (str! "ES256")),
    (str! "typ", .str proofTyp)]) = some ⟨proofTyp, .ES256, some (.keyId (str! "did:a#k"))⟩ := by
  decide +kernel

/-! ### C86 -/

/-- C86 in full: pre-evaluation of a valid request succeeds, with nothing to resolve when the key is
given by `jwk` or `x5c` or is not a DID. -/
def C86_statement : Prop := ∀ (x : Ext) (r : CredentialRequest), r.validate x = .ok () →
  ∃ resp, preEvaluateCredentialRequest x r = .ok resp ∧
    ∀ p jwt, r.proof = some p → ProofJwt.fromStr x p.jwt = .ok jwt →
      (∀ kid url, jwt.header.additionalHeader = some (.keyId kid) → x.didUrl kid ≠ .ok url) →
      resp.did = none

/-- C86 is violated by every valid request with such a key: pre-evaluation fails. -/
theorem C86_fails (x : Ext) (r : CredentialRequest) (p : CredentialRequestProof) (jwt : ProofJwt)
    (h : r.validate x = .ok ()) (hp : r.proof = some p) (hj : ProofJwt.fromStr x p.jwt = .ok jwt)
    (hk : jwt.header.additionalHeader ≠ none)
    (hd : ∀ kid url, jwt.header.additionalHeader = some (.keyId kid) → x.didUrl kid ≠ .ok url) :
    ∃ e, preEvaluateCredentialRequest x r = .err (.jwtError e) := by
  obtain ⟨ht, jwt', hj', hty⟩ := (C19_request x r).1 h p hp
  rw [hj] at hj'; cases hj'
  cases ha : jwt.header.additionalHeader with
  | none => exact absurd ha hk
  | some a =>
    cases a with
    | jwk k => exact ⟨_, (C60_pre_evaluate_errors ..).2 (.did p jwt _ hp ht hj hty (.jwk k ha))⟩
    | x5c k => exact ⟨_, (C60_pre_evaluate_errors ..).2 (.did p jwt _ hp ht hj hty (.x5c k ha))⟩
    | keyId kid =>
      cases hu : x.didUrl kid with
      | ok url => exact absurd hu (hd kid url ha)
      | error msg =>
        exact ⟨_, (C60_pre_evaluate_errors ..).2 (.did p jwt _ hp ht hj hty (.kidSyntax kid msg ha hu))⟩

/-- C86, partial: exactly the valid requests without a key, or with a DID URL as key, pass. Missing:
the other keys. -/
theorem C86_exact_partial (x : Ext) (r : CredentialRequest) (resp : PreEvaluateCredentialRequestResponse) :
    preEvaluateCredentialRequest x r = .ok resp ↔ r.validate x = .ok () ∧
      ((r.proof = none ∧ resp.did = none) ∨ ∃ p jwt, r.proof = some p ∧
        ProofJwt.fromStr x p.jwt = .ok jwt ∧
        ((jwt.header.additionalHeader = none ∧ resp.did = none) ∨
          ∃ kid url, jwt.header.additionalHeader = some (.keyId kid) ∧ x.didUrl kid = .ok url ∧
            resp.did = some url.did)) := by
  obtain ⟨did⟩ := resp
  unfold preEvaluateCredentialRequest
  rw [Res.bind_eq_ok]
  simp only [Res.mapErr_eq_ok]
  constructor
  · rintro ⟨⟨⟩, hv, h⟩
    refine ⟨hv, ?_⟩
    cases hp : r.proof with
    | none => rw [hp] at h; cases h; exact .inl ⟨rfl, rfl⟩
    | some p =>
      rw [hp] at h
      simp only [Res.bind_eq_ok, Res.mapErr_eq_ok] at h
      obtain ⟨jwt, hj, ⟨⟩, -, d, hd, he⟩ := h
      cases he
      refine .inr ⟨p, jwt, rfl, hj, ?_⟩
      unfold ProofJwt.extractDid at hd
      cases ha : jwt.header.additionalHeader with
      | none => rw [ha] at hd; cases hd; exact .inl ⟨rfl, rfl⟩
      | some a =>
        rw [ha] at hd
        cases a with
        | jwk k => cases hd
        | x5c k => cases hd
        | keyId kid =>
          simp only at hd
          cases hu : x.didUrl kid with
          | error m => rw [hu] at hd; cases hd
          | ok url => rw [hu] at hd; cases hd; exact .inr ⟨kid, url, rfl, hu, rfl⟩
  · rintro ⟨hv, h⟩
    refine ⟨(), hv, ?_⟩
    rcases h with ⟨hp, hn⟩ | ⟨p, jwt, hp, hj, h⟩
    · cases hn; rw [hp]
    · rw [hp]
      obtain ⟨-, jwt', hj', hty⟩ := (C19_request x r).1 hv p hp
      rw [hj] at hj'; cases hj'
      simp only [Res.bind_eq_ok, Res.mapErr_eq_ok]
      refine ⟨jwt, hj, (), (C19_typ jwt).2 hty, ?_⟩
      rcases h with ⟨ha, hn⟩ | ⟨kid, url, ha, hu, hn⟩
      · cases hn
        exact ⟨none, by simp [ProofJwt.extractDid, ha], rfl⟩
      · cases hn
        exact ⟨some url.did, by simp [ProofJwt.extractDid, ha, hu], rfl⟩

/-- C86 does not hold. -/
theorem C86_refuted : ¬ C86_statement := by
  intro h
  let hd : ProofJwtHeader := { Ex.header with additionalHeader := some (.jwk (str! "{}")) }
  have hj : ProofJwt.fromStr Ex.ext (compact Ex.ext hd Ex.plainBody (some [])) =
      .ok ⟨hd, Ex.plainBody, some []⟩ := fromStr_compact _ _ _ _ Ex.timesOk_plainBody (by simp [NoDot])
  have hv : (⟨Ex.mdoc, some ⟨str! "jwt", compact Ex.ext hd Ex.plainBody (some [])⟩⟩ :
      CredentialRequest).validate Ex.ext = .ok () :=
    (C19_request _ _).2 fun p hp => by
      cases hp
      exact ⟨(uppercase_eq_iff _).1 (by decide +kernel), _, hj, Ex.bound.typ⟩
  obtain ⟨resp, hr, -⟩ := h _ _ hv
  obtain ⟨e, he⟩ := C86_fails _ _ _ _ hv rfl hj (by simp [hd]) (by simp [hd])
  rw [hr] at he
  cases he

/-! ### C87 -/

/-- C87 in full: nonce and lifetime appear together in a credential response. -/
def C87_statement : Prop := ∀ (x : Ext) (now t : Time) (r : CredentialRequest)
  (c : Option CredentialOrAcceptanceToken) (nonce : Option CNonce) (resp : CredentialSuccessResponse),
  createCredentialSuccessResponse x now r c nonce = .ok (resp, t) →
  (resp.cNonce ≠ none ↔ resp.cNonceExpiresIn ≠ none)

/-- C87 is violated by every nonce without a lifetime, for every valid request. -/
theorem C87_lifetime_missing (x : Ext) (now : Time) (r : CredentialRequest)
    (c : Option CredentialOrAcceptanceToken) (n : Str) (h : r.validate x = .ok ()) :
    ∃ resp, createCredentialSuccessResponse x now r c (some ⟨n, none⟩) = .ok (resp, now) ∧
      resp.cNonce = some n ∧ resp.cNonceExpiresIn = none := by
  obtain ⟨resp, h1, h2, h3⟩ := C78_nonce_unchecked x now r c (some ⟨n, none⟩) h
  exact ⟨resp, h1, h2, h3⟩

/-- C87 does not hold. -/
theorem C87_refuted : ¬ C87_statement := by
  intro h
  obtain ⟨resp, h1, h2, h3⟩ := C87_lifetime_missing Ex.ext 0 Ex.request none [] Ex.request_valid
  exact (h _ _ _ _ _ _ _ h1).1 (by simp [h2]) h3

/-- C87, partial: a lifetime never appears without its nonce. Missing: the converse. -/
theorem C87_nonce_partial (x : Ext) (now t : Time) (r : CredentialRequest)
    (c : Option CredentialOrAcceptanceToken) (nonce : Option CNonce)
    (resp : CredentialSuccessResponse)
    (h : createCredentialSuccessResponse x now r c nonce = .ok (resp, t))
    (he : resp.cNonceExpiresIn ≠ none) : resp.cNonce ≠ none := by
  obtain ⟨-, -, -, h1, h2, -⟩ := success_eq_ok.1 h
  cases nonce with
  | none => exact absurd h2 he
  | some n => simp [h1]

/-- A nonce with its lifetime. -/
example : ∃ resp t, createCredentialSuccessResponse Ex.ext 0 ⟨Ex.mdoc, none⟩ none (some ⟨str! "n", some 60⟩)
    = .ok (resp, t) ∧ resp.cNonce ≠ none :=
  ⟨_, _, rfl, C87_nonce_partial Ex.ext 0 0 ⟨Ex.mdoc, none⟩ none (some ⟨str! "n", some 60⟩) _ rfl (by simp)⟩

/-! ### C88 -/

/-- The kinds of errors which an operation with these outcomes reports. -/
def Spec.Reports {α : Type} (outcome : CredentialIssuerResult α → Prop) (k : Kind) : Prop :=
  ∃ e, outcome (.err e) ∧ kind e = k

/-- C88. `create_offer` reports exactly three kinds of errors. -/
theorem C88_create_offer (k : Kind) :
    Reports (fun o => ∃ m cs endpoint a p, createOffer m cs endpoint a p = o) k ↔
      k ∈ [Kind.validation, .authorizedFlow, .unknownId] := by
  constructor
  · rintro ⟨e, ⟨m, cs, endpoint, a, p, h⟩, rfl⟩
    unfold createOffer at h
    rcases Res.bind_eq_err.1 h with h | ⟨_, -, h⟩
    · obtain ⟨e', -, rfl⟩ := Res.mapErr_eq_err.1 h
      simp [kind]
    · split at h
      · cases h; simp [kind]
      · rcases Res.bind_eq_err.1 h with h | ⟨_, -, h⟩
        · have : ∃ id, e = .credentialIdNotInIssuerMetadata id := by
            clear * - h
            induction cs with
            | nil => cases h
            | cons c cs ih =>
              rw [CredentialOrIds.resolveAll] at h
              rcases Res.bind_eq_err.1 h with h | ⟨_, -, h⟩
              · cases c with
                | credential c => cases h
                | credentialId s =>
                  simp only [CredentialOrId.resolve] at h
                  split at h
                  · cases h
                  · cases h; exact ⟨_, rfl⟩
              · rcases Res.bind_eq_err.1 h with h | ⟨_, -, h⟩
                · exact ih h
                · cases h
          obtain ⟨id, rfl⟩ := this
          simp [kind]
        · cases h
  · intro hk
    simp only [List.mem_cons, List.not_mem_nil, or_false] at hk
    rcases hk with rfl | rfl | rfl
    · obtain ⟨e, he⟩ := (C12_create_offer { Ex.metadata with credentialsSupported :=
        [Ex.entry (some []) Ex.mdoc, Ex.entry (some []) Ex.mdoc] } [] none none none).2.2.1
        (fun h => absurd (h 0 1 _ _ [] rfl rfl rfl rfl) (by simp))
      exact ⟨_, ⟨_, _, _, _, _, he⟩, rfl⟩
    · exact ⟨_, ⟨_, _, _, _, _, (C12_create_offer Ex.metadata [] none (some ⟨none⟩) none).2.2.2.1
        Ex.distinct_metadata (by simp)⟩, rfl⟩
    · exact ⟨_, ⟨_, _, _, _, _, (C12_create_offer .default [.credentialId []] none none none).2.2.2.2
        (by simp [DistinctIds, CredentialIssuerMetadata.default]) rfl []
        ⟨[], [], rfl, by simp, by simp [KnownId, CredentialIssuerMetadata.default]⟩⟩, rfl⟩

/-- C88. `evaluate_credential_request` reports exactly six kinds of errors. -/
theorem C88_evaluate (k : Kind) :
    Reports (fun o => ∃ (x : Ext) (now : Time) (m : CredentialIssuerMetadata) (r : CredentialRequest)
      (offer : Option CredentialOffer) (asm : Option AuthorizationServerMetadata) (doc : Option x.Doc)
      (options : Option EvaluateCredentialRequestOptions),
      evaluateCredentialRequest x now m r offer asm doc options = o) k ↔
      k ∈ [Kind.validation, .jwt, .serverMetadata, .noOffer, .nonceExpired, .noProof] := by
  constructor
  · rintro ⟨e, ⟨x, now, m, r, offer, asm, doc, options, h⟩, rfl⟩
    have hr := (C60_evaluate_errors x now m r offer asm doc options e).1 h
    cases hr <;> simp [kind]
  · intro hk
    simp only [List.mem_cons, List.not_mem_nil, or_false] at hk
    have hc : Configured Ex.metadata (some Ex.pinOffer) none := ⟨Ex.distinct_metadata, by simp, rfl⟩
    rcases hk with rfl | rfl | rfl | rfl | rfl | rfl
    · exact ⟨_, ⟨Ex.ext, 0, { Ex.metadata with credentialsSupported :=
        [Ex.entry (some []) Ex.mdoc, Ex.entry (some []) Ex.mdoc] }, Ex.request, none, none, none, none,
        (C60_evaluate_errors ..).2 (.ids (fun h => absurd (h 0 1 _ _ [] rfl rfl rfl rfl) (by simp)))⟩,
        rfl⟩
    · exact ⟨_, ⟨Ex.ext, 1000, Ex.metadata, Ex.request, some Ex.pinOffer, none, none, none,
        (C60_evaluate_errors ..).2 (.nonce _ hc (by rintro c ⟨⟩) ⟨_, rfl, Ex.fromStr_request⟩
          Ex.bound.typ (by simp [expectedNonce, nonceOptions]))⟩, rfl⟩
    · exact ⟨_, ⟨Ex.ext, 0, Ex.metadata, Ex.request, some Ex.pinOffer, some ⟨⟩, none, none,
        (C60_evaluate_errors ..).2 (.server Ex.distinct_metadata (by simp) (by simp))⟩, rfl⟩
    · exact ⟨_, ⟨Ex.ext, 0, Ex.metadata, Ex.request, none, none, none, none,
        (C60_evaluate_errors ..).2 (.noOffer Ex.distinct_metadata rfl)⟩, rfl⟩
    · exact ⟨_, ⟨Ex.ext, 1, Ex.metadata, Ex.request, some Ex.pinOffer, none, none,
        some ⟨some ⟨0, [], 0⟩, none⟩, (C60_evaluate_errors ..).2 (.expired ⟨0, [], 0⟩ hc rfl
          (by decide +kernel) (by decide +kernel))⟩, rfl⟩
    · exact ⟨_, ⟨Ex.ext, 0, Ex.metadata, { Ex.request with proof := none }, some Ex.pinOffer, none, none,
        none, (C60_evaluate_errors ..).2 (.noProof hc (by rintro c ⟨⟩) rfl)⟩, rfl⟩

/-- C88. `pre_evaluate_credential_request` reports exactly two kinds of errors. -/
theorem C88_pre_evaluate (k : Kind) :
    Reports (fun o => ∃ x r, preEvaluateCredentialRequest x r = o) k ↔ k ∈ [Kind.validation, .jwt] := by
  constructor
  · rintro ⟨e, ⟨x, r, h⟩, rfl⟩
    have hr := (C60_pre_evaluate_errors x r e).1 h
    cases hr <;> simp [kind]
  · intro hk
    simp only [List.mem_cons, List.not_mem_nil, or_false] at hk
    rcases hk with rfl | rfl
    · exact ⟨_, ⟨Ex.ext, ⟨Ex.mdoc, some ⟨str! "cwt", []⟩⟩, (C60_pre_evaluate_errors ..).2
        (.proofType ⟨str! "cwt", []⟩ rfl
          (fun h => absurd ((uppercase_eq_iff _).2 h) (by decide +kernel)))⟩, rfl⟩
    · let hd : ProofJwtHeader := { Ex.header with additionalHeader := some (.jwk (str! "{}")) }
      have hj : ProofJwt.fromStr Ex.ext (compact Ex.ext hd Ex.plainBody (some [])) =
          .ok ⟨hd, Ex.plainBody, some []⟩ :=
        fromStr_compact _ _ _ _ Ex.timesOk_plainBody (by simp [NoDot])
      exact ⟨_, ⟨Ex.ext, ⟨Ex.mdoc, some ⟨str! "jwt", compact Ex.ext hd Ex.plainBody (some [])⟩⟩,
        (C60_pre_evaluate_errors ..).2 (.did _ _ _ rfl ((uppercase_eq_iff _).1 (by decide +kernel)) hj
          Ex.bound.typ (.jwk (str! "{}") rfl))⟩, rfl⟩

/-- C88. `create_credential_success_response` reports validation errors only, and
`create_credential_error_response` none. -/
theorem C88_responses (k : Kind) :
    (Reports (fun o => ∃ x now r c nonce, createCredentialSuccessResponse x now r c nonce = o) k ↔
      k = .validation) ∧
    ¬ Reports (fun o => ∃ code d u details, createCredentialErrorResponse code d u details = o) k := by
  refine ⟨⟨?_, ?_⟩, ?_⟩
  · rintro ⟨e, ⟨x, now, r, c, nonce, h⟩, rfl⟩
    cases hv : r.validate x with
    | ok u =>
      obtain ⟨resp, h', -⟩ := C78_nonce_unchecked x now r c nonce hv
      rw [h] at h'; cases h'
    | err e' =>
      rw [C78_invalid_request_partial x now r c nonce e' hv] at h
      cases h; rfl
    | panic =>
      unfold createCredentialSuccessResponse at h
      rw [hv] at h
      cases h
  · rintro rfl
    exact ⟨_, ⟨Ex.ext, 0, ⟨Ex.mdoc, some ⟨str! "cwt", []⟩⟩, none, none,
      C78_invalid_request_partial _ _ _ _ _ (.any (str! "`proof_type` MUST of of value `JWT`"))
        (by decide +kernel)⟩, rfl⟩
  · rintro ⟨e, ⟨code, d, u, details, h⟩, -⟩
    cases h

/-- C88. Five of the thirteen declared kinds are reported by no operation, among them the one for a
requested credential that the issuer does not have. -/
theorem C88_never (k : Kind)
    (h : k ∈ [Kind.offerEncoding, .requestedCredential, .expiredCNonce, .credentialAndToken, .noOptions]) :
    ¬ Reports (fun o => ∃ m cs endpoint a p, createOffer m cs endpoint a p = o) k ∧
    ¬ Reports (fun o => ∃ (x : Ext) (now : Time) (m : CredentialIssuerMetadata) (r : CredentialRequest)
      (offer : Option CredentialOffer) (asm : Option AuthorizationServerMetadata) (doc : Option x.Doc)
      (options : Option EvaluateCredentialRequestOptions),
      evaluateCredentialRequest x now m r offer asm doc options = o) k ∧
    ¬ Reports (fun o => ∃ x r, preEvaluateCredentialRequest x r = o) k ∧
    ¬ Reports (fun o => ∃ x now r c nonce, createCredentialSuccessResponse x now r c nonce = o) k := by
  rw [C88_create_offer, C88_evaluate, C88_pre_evaluate, (C88_responses k).1]
  revert h
  cases k <;> decide

end Oid4vci
