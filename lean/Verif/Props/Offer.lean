import Verif.Lemmas.Offer

/-! Metadata validation, resolution and offer creation: C04 (second part), C09-C13, C15, C16, C55. -/

namespace Oid4vci

open Spec CredentialIssuer

namespace Ex

/-- An ldp_vc credential. -/
def ldp : CredentialFormatProfile := .ldpVc [.string (str! "ctx")] [str! "A"] none none
/-- An mso_mdoc credential. -/
def mdoc : CredentialFormatProfile := .msoMdoc (str! "doc") none none
/-- An entry of the metadata. -/
def entry (id : Option Str) (f : CredentialFormatProfile) : CredentialSupported :=
  ⟨f, id, none, none, none⟩
/-- Metadata with two identified and two anonymous entries. -/
def metadata : CredentialIssuerMetadata :=
  ⟨str! "https://issuer", none, str! "https://issuer/credential", none,
    [entry none ldp, entry (some (str! "a")) ldp, entry none ldp, entry (some (str! "b")) mdoc], none⟩

end Ex

/-! ### C09 -/

/-- C09. Validation succeeds exactly when present ids are pairwise distinct, and otherwise fails with
a validation error. -/
theorem C09_validate_iff (m : CredentialIssuerMetadata) :
    (m.validate = .ok () ↔ DistinctIds m.credentialsSupported) ∧
    (¬ DistinctIds m.credentialsSupported → ∃ e, m.validate = .err e) := by
  refine ⟨metadata_validate_iff m, fun h => ?_⟩
  have h1 := (metadata_validate_iff m).not.2 h
  unfold CredentialIssuerMetadata.validate at *
  split at h1
  · rename_i hu; rw [if_pos hu]; exact ⟨_, rfl⟩
  · rw [validateAll_ok _ CredentialSupported.validate_ok] at h1; exact absurd rfl h1

example : DistinctIds Ex.metadata.credentialsSupported := by
  rw [← metadata_validate_iff]; decide +kernel
example : ¬ DistinctIds (Ex.entry (some (str! "b")) Ex.ldp :: Ex.metadata.credentialsSupported) :=
  fun h => absurd (h 0 4 _ _ (str! "b") rfl rfl rfl rfl) (by decide)

/-! ### C10 -/

/-- C10. Under valid metadata an id resolves exactly to the format of an entry with that id, and
fails with the id otherwise. -/
theorem C10_resolve_id (m : CredentialIssuerMetadata) (hv : DistinctIds m.credentialsSupported)
    (id : Str) :
    (∀ f, (CredentialOrId.credentialId id).resolve m = .ok f ↔
      ∃ e ∈ m.credentialsSupported, e.id = some id ∧ e.format = f) ∧
    (¬ KnownId m id → (CredentialOrId.credentialId id).resolve m
      = .err (.credentialIdNotInIssuerMetadata id)) := by
  refine ⟨fun f => ?_, resolve_id_unknown m id⟩
  rw [resolve_id_ok_iff]
  constructor
  · rintro ⟨as, e, bs, he, hid, hf, -⟩
    exact ⟨e, by rw [he]; simp, hid, hf⟩
  · rintro ⟨e, he, hid, hf⟩
    obtain ⟨as, bs, hs⟩ := List.append_of_mem he
    refine ⟨as, e, bs, hs, hid, hf, fun e' he' hid' => ?_⟩
    obtain ⟨i, hi⟩ := List.mem_iff_getElem?.1 he'
    have hlt : i < as.length := (List.getElem?_eq_some_iff.1 hi).1
    have h1 : m.credentialsSupported[i]? = some e' := by
      rw [hs, List.getElem?_append_left hlt]; exact hi
    have h2 : m.credentialsSupported[as.length]? = some e := by rw [hs]; simp
    have := hv i as.length e' e id h1 h2 hid' hid
    omega

/-- C10. The result does not depend on the order of the entries. -/
theorem C10_resolve_perm (m m' : CredentialIssuerMetadata)
    (hv : DistinctIds m.credentialsSupported)
    (hp : m.credentialsSupported.Perm m'.credentialsSupported) (c : CredentialOrId) :
    c.resolve m = c.resolve m' := by
  have hv' : DistinctIds m'.credentialsSupported := by
    -- distinctness is `Nodup` of the present ids, which is permutation invariant
    have hn : ∀ cs : List CredentialSupported, DistinctIds cs ↔
        (cs.filterMap CredentialSupported.id).Nodup := by
      intro cs
      induction cs with
      | nil => simp [DistinctIds]
      | cons a cs ih =>
        have hu : DistinctIds (a :: cs) ↔ DistinctIds cs ∧
            ∀ e ∈ cs, ∀ id, e.id = some id → a.id ≠ some id := by
          have h1 := idsUnique_iff [] (a :: cs)
          have h2 := idsUnique_iff [] cs
          have h3 := fun id => idsUnique_iff [id] cs
          simp only [List.not_mem_nil, not_false_eq_true, implies_true, and_true] at h1 h2
          rw [← h1, idsUnique]
          cases hid : a.id with
          | none => simp [h2]
          | some id => simp [h3, eq_comm]
        rw [hu, ih]
        cases hid : a.id with
        | none => simp [hid]
        | some id =>
          simp only [List.filterMap_cons, hid, List.nodup_cons, List.mem_filterMap]
          constructor
          · rintro ⟨h1, h2⟩
            exact ⟨fun ⟨e, he, hi⟩ => h2 e he id hi rfl, h1⟩
          · rintro ⟨h1, h2⟩
            refine ⟨h2, fun e he i hi hh => h1 ⟨e, he, ?_⟩⟩
            rw [hi, ← hh]
    rw [hn] at hv ⊢
    exact (hp.filterMap _).nodup_iff.1 hv
  cases c with
  | credential c => rfl
  | credentialId id =>
    by_cases hk : KnownId m id
    · obtain ⟨f, hf⟩ := (knownId_iff m id).1 hk
      rw [hf]
      obtain ⟨e, he, hid, hff⟩ := ((C10_resolve_id m hv id).1 f).1 hf
      exact (((C10_resolve_id m' hv' id).1 f).2 ⟨e, hp.mem_iff.1 he, hid, hff⟩).symm
    · have hk' : ¬ KnownId m' id := fun ⟨e, he, hid⟩ => hk ⟨e, hp.mem_iff.2 he, hid⟩
      rw [resolve_id_unknown m id hk, resolve_id_unknown m' id hk']

/-- C10. An inline credential resolves to itself. -/
theorem C10_resolve_inline (m : CredentialIssuerMetadata) (c : CredentialFormatProfile) :
    (CredentialOrId.credential c).resolve m = .ok c := rfl

example : (CredentialOrId.credentialId (str! "b")).resolve Ex.metadata = .ok Ex.mdoc := by
  decide +kernel
example : ¬ KnownId Ex.metadata (str! "c") := by
  rw [knownId_iff]; rintro ⟨f, h⟩
  rw [show (CredentialOrId.credentialId (str! "c")).resolve Ex.metadata
    = .err (.credentialIdNotInIssuerMetadata (str! "c")) by decide +kernel] at h
  cases h

/-! ### C11 -/

/-- C11. `resolve_all` succeeds exactly with the list of what the entries stand for, in order; it
fails exactly with the first unknown id. -/
theorem C11_resolve_all (m : CredentialIssuerMetadata) (cs : CredentialOrIds) :
    (∀ fs, CredentialOrIds.resolveAll m cs = .ok fs ↔ List.Forall₂ (StandsFor m) cs fs) ∧
    (∀ e, CredentialOrIds.resolveAll m cs = .err e ↔
      ∃ id, e = .credentialIdNotInIssuerMetadata id ∧ FirstUnknown m cs id) ∧
    ((∀ c ∈ cs, Resolvable m c) ↔ ∃ fs, CredentialOrIds.resolveAll m cs = .ok fs) := by
  refine ⟨resolveAll_ok_iff m cs, fun e => ?_, ?_⟩
  · rcases resolveAll_cases m cs with ⟨hall, fs, hfs⟩ | ⟨id, hu, he⟩
    · rw [hfs]
      simp only [reduceCtorEq, false_iff]
      rintro ⟨id, -, hu⟩
      exact firstUnknown_not_all hu hall
    · rw [he]
      simp only [Res.err.injEq]
      constructor
      · rintro rfl; exact ⟨id, rfl, hu⟩
      · rintro ⟨id', rfl, hu'⟩
        obtain ⟨as, bs, hs, hb, hk⟩ := hu
        obtain ⟨as', bs', hs', hb', hk'⟩ := hu'
        -- two decompositions at the first unresolvable entry coincide
        have : ∀ (as as' : CredentialOrIds) (bs bs' : CredentialOrIds),
            as ++ .credentialId id :: bs = as' ++ .credentialId id' :: bs' →
            (∀ c ∈ as, Resolvable m c) → (∀ c ∈ as', Resolvable m c) → id = id' := by
          intro as
          induction as with
          | nil =>
            intro as' bs bs' h _ h'
            cases as' with
            | nil => simp at h; exact h.1
            | cons a' as' =>
              simp only [List.nil_append, List.cons_append, List.cons.injEq] at h
              exact absurd (h' a' (by simp)) (by rw [← h.1]; exact hk)
          | cons a as ih =>
            intro as' bs bs' h h0 h'
            cases as' with
            | nil =>
              simp only [List.nil_append, List.cons_append, List.cons.injEq] at h
              exact absurd (h0 a (by simp)) (by rw [h.1]; exact hk')
            | cons a' as' =>
              simp only [List.cons_append, List.cons.injEq] at h
              exact ih as' bs bs' h.2 (fun c hc => h0 c (by simp [hc])) fun c hc => h' c (by simp [hc])
        rw [this as as' bs bs' (hs.symm.trans hs') hb hb']
  · rcases resolveAll_cases m cs with ⟨hall, hfs⟩ | ⟨id, hu, he⟩
    · exact ⟨fun _ => hfs, fun _ => hall⟩
    · constructor
      · intro h; exact absurd h (firstUnknown_not_all hu)
      · rintro ⟨fs, hfs⟩; rw [he] at hfs; cases hfs

example : CredentialOrIds.resolveAll Ex.metadata
    [.credentialId (str! "b"), .credential Ex.ldp, .credentialId (str! "a")]
    = .ok [Ex.mdoc, Ex.ldp, Ex.ldp] := by decide +kernel
example : CredentialOrIds.resolveAll Ex.metadata
    [.credentialId (str! "b"), .credentialId (str! "x"), .credentialId (str! "y")]
    = .err (.credentialIdNotInIssuerMetadata (str! "x")) := by decide +kernel

/-! ### C12 and the second part of C04 -/

/-- C12. Success condition, returned offer, and errors in order of precedence. -/
theorem C12_create_offer (m : CredentialIssuerMetadata) (cs : CredentialOrIds)
    (endpoint : Option Str) (a : Option AuthorizedCodeFlow) (p : Option PreAuthorizedCodeFlow) :
    ((∃ r, createOffer m cs endpoint a p = .ok r) ↔
      DistinctIds m.credentialsSupported ∧ a = none ∧ ∀ c ∈ cs, Resolvable m c) ∧
    (∀ offer url, createOffer m cs endpoint a p = .ok (offer, url) →
      offer.credentialIssuer = m.credentialIssuer ∧ offer.credentials = cs ∧
      offer.grants.preAuthorizedCodeFlow = p ∧ offer.grants.authorizedCodeFlow = none) ∧
    (¬ DistinctIds m.credentialsSupported →
      ∃ e, createOffer m cs endpoint a p = .err (.validationError e)) ∧
    (DistinctIds m.credentialsSupported → a ≠ none →
      createOffer m cs endpoint a p = .err .authorizedFlowNotSupported) ∧
    (DistinctIds m.credentialsSupported → a = none → ∀ id, FirstUnknown m cs id →
      createOffer m cs endpoint a p = .err (.credentialIdNotInIssuerMetadata id)) := by
  have herr : ¬ DistinctIds m.credentialsSupported →
      ∃ e, createOffer m cs endpoint a p = .err (.validationError e) := by
    intro h
    obtain ⟨e, he⟩ := (C09_validate_iff m).2 h
    exact ⟨e, by simp [createOffer, he]⟩
  have hauth : DistinctIds m.credentialsSupported → a ≠ none →
      createOffer m cs endpoint a p = .err .authorizedFlowNotSupported := by
    intro h ha
    have hs : a.isSome = true := Option.isSome_iff_ne_none.2 ha
    simp [createOffer, (metadata_validate_iff m).2 h, hs]
  have hunk : DistinctIds m.credentialsSupported → a = none → ∀ id, FirstUnknown m cs id →
      createOffer m cs endpoint a p = .err (.credentialIdNotInIssuerMetadata id) := by
    rintro h rfl id hu
    have : CredentialOrIds.resolveAll m cs = .err (.credentialIdNotInIssuerMetadata id) :=
      ((C11_resolve_all m cs).2.1 _).2 ⟨id, rfl, hu⟩
    simp [createOffer, (metadata_validate_iff m).2 h, this]
  have hok : DistinctIds m.credentialsSupported → a = none → (∀ c ∈ cs, Resolvable m c) →
      createOffer m cs endpoint a p = .ok (⟨m.credentialIssuer, cs, ⟨none, p⟩⟩,
        offerUrlPrefix endpoint ++ str! "credential_offer="
          ++ urlencode (CredentialOffer.ser ⟨m.credentialIssuer, cs, ⟨none, p⟩⟩).print) := by
    rintro h rfl hall
    obtain ⟨fs, hfs⟩ := (C11_resolve_all m cs).2.2.1 hall
    simp [createOffer, (metadata_validate_iff m).2 h, hfs, CredentialOffer.new,
      CredentialOffer.urlEncode]
  have hcond : (∃ r, createOffer m cs endpoint a p = .ok r) →
      DistinctIds m.credentialsSupported ∧ a = none ∧ ∀ c ∈ cs, Resolvable m c := by
    rintro ⟨r, hr⟩
    by_cases h : DistinctIds m.credentialsSupported
    · by_cases ha : a = none
      · refine ⟨h, ha, ?_⟩
        rcases resolveAll_cases m cs with ⟨hall, -⟩ | ⟨id, hu, -⟩
        · exact hall
        · rw [hunk h ha id hu] at hr; cases hr
      · rw [hauth h ha] at hr; cases hr
    · obtain ⟨e, he⟩ := herr h
      rw [he] at hr; cases hr
  refine ⟨⟨hcond, fun ⟨h, ha, hall⟩ => ⟨_, hok h ha hall⟩⟩, ?_, herr, hauth, hunk⟩
  intro offer url hr
  obtain ⟨h, ha, hall⟩ := hcond ⟨_, hr⟩
  rw [hok h ha hall] at hr
  cases hr
  exact ⟨rfl, rfl, rfl, rfl⟩

/-- The URL of a created offer (used for C14-C16). -/
theorem createOffer_url (m : CredentialIssuerMetadata) (cs : CredentialOrIds)
    (endpoint : Option Str) (a : Option AuthorizedCodeFlow) (p : Option PreAuthorizedCodeFlow)
    (offer : CredentialOffer) (url : Str)
    (h : createOffer m cs endpoint a p = .ok (offer, url)) :
    url = offerUrlPrefix endpoint ++ str! "credential_offer=" ++ urlencode offer.ser.print := by
  unfold createOffer at h
  simp only [Res.bind_eq_ok] at h
  obtain ⟨-, -, h⟩ := h
  split at h
  · cases h
  · simp only [Res.bind_eq_ok, CredentialOffer.urlEncode, Res.ok.injEq] at h
    obtain ⟨-, -, _, rfl, h⟩ := h
    simp only [Prod.mk.injEq] at h
    rw [← h.1, ← h.2]

example : ∃ r, createOffer Ex.metadata [.credentialId (str! "b"), .credential Ex.ldp] none none
    (some ⟨str! "code", none⟩) = .ok r :=
  (C12_create_offer _ _ _ _ _).1.2 ⟨by rw [← metadata_validate_iff]; decide +kernel, rfl, by
    rintro c (_ | ⟨_, _ | ⟨_, _ | _⟩⟩)
    · exact ⟨Ex.entry (some (str! "b")) Ex.mdoc, by simp [Ex.metadata], rfl⟩
    · trivial⟩

/-- C04, second part: `create_offer` never succeeds with an authorized code flow. -/
theorem C04_create_offer (m : CredentialIssuerMetadata) (cs : CredentialOrIds)
    (endpoint : Option Str) (a : AuthorizedCodeFlow) (p : Option PreAuthorizedCodeFlow) :
    ∀ r, createOffer m cs endpoint (some a) p ≠ .ok r := by
  intro r hr
  have := (C12_create_offer m cs endpoint (some a) p).1.1 ⟨r, hr⟩
  exact absurd this.2.1 (by simp)

/-! ### C13 -/

/-- C13 in full: every credential of a created offer is supported. -/
def C13_statement : Prop := ∀ (m : CredentialIssuerMetadata) (cs : CredentialOrIds)
  (endpoint : Option Str) (a : Option AuthorizedCodeFlow) (p : Option PreAuthorizedCodeFlow)
  (offer : CredentialOffer) (url : Str), createOffer m cs endpoint a p = .ok (offer, url) →
    ∀ c ∈ offer.credentials, Supported m c

/-- C13 is violated: an inline credential is offered although the issuer supports nothing. -/
theorem C13_refuted : ¬ C13_statement := by
  intro h
  obtain ⟨⟨o, u⟩, hr⟩ := (C12_create_offer .default [.credential Ex.ldp] none none none).1.2
    ⟨by simp [DistinctIds, CredentialIssuerMetadata.default], rfl, by simp [Resolvable]⟩
  have hc := ((C12_create_offer _ _ _ _ _).2.1 o u hr).2.1
  have := h _ _ _ _ _ o u hr (.credential Ex.ldp) (by rw [hc]; simp)
  simp [Supported, CredentialIssuerMetadata.default] at this

/-- C13, partial: every id in a created offer names a supported credential. Missing: inline
credentials (they are never compared with the metadata). -/
theorem C13_ids_supported_partial (m : CredentialIssuerMetadata) (cs : CredentialOrIds)
    (endpoint : Option Str) (a : Option AuthorizedCodeFlow) (p : Option PreAuthorizedCodeFlow)
    (offer : CredentialOffer) (url : Str) (h : createOffer m cs endpoint a p = .ok (offer, url))
    (id : Str) (hid : .credentialId id ∈ offer.credentials) :
    ∃ e ∈ m.credentialsSupported, e.id = some id := by
  have hc := ((C12_create_offer _ _ _ _ _).2.1 _ _ h).2.1
  rw [hc] at hid
  exact ((C12_create_offer m cs endpoint a p).1.1 ⟨_, h⟩).2.2 _ hid

/-! ### C55 and C15 -/

/-- C55. Percent-encoding is lossless, hence injective. -/
theorem C55_urlencode_lossless (s : Str) : urlDecode (urlencode s) = some s :=
  urlDecode_urlencode s

/-- C55. Distinct strings have distinct encodings. -/
theorem C55_urlencode_injective (s t : Str) (h : urlencode s = urlencode t) : s = t := by
  have h1 := urlDecode_urlencode s
  rw [h, urlDecode_urlencode] at h1
  simpa using h1.symm

example : urlencode (str! "a é€😀/~") = str! "a%20%C3%A9%E2%82%AC%F0%9F%98%80%2F~" := by
  decide +kernel

/-- C15. The payload of a created offer's URL is a percent-encoded payload; in particular it contains
none of the characters that could end or split the parameter. -/
theorem C15_payload (m : CredentialIssuerMetadata) (cs : CredentialOrIds)
    (endpoint : Option Str) (a : Option AuthorizedCodeFlow) (p : Option PreAuthorizedCodeFlow)
    (offer : CredentialOffer) (url : Str) (h : createOffer m cs endpoint a p = .ok (offer, url)) :
    ∃ before payload, url = before ++ str! "credential_offer=" ++ payload ∧ Payload payload ∧
      urlDecode payload = some offer.ser.print ∧
      (∀ c ∈ str! "&=#?+ \"'<>", c ∉ payload) ∧ ∀ c ∈ payload, c.toNat < 128 := by
  refine ⟨offerUrlPrefix endpoint, urlencode offer.ser.print, createOffer_url _ _ _ _ _ _ _ h,
    payload_urlencode _, urlDecode_urlencode _, ?_, ?_⟩
  · intro c hc
    refine payload_not_mem (payload_urlencode _) c ?_ ?_
    · revert c; decide
    · revert c; decide
  · intro c hc
    rcases payload_mem (payload_urlencode _) c hc with hu | rfl
    · simp only [Unreserved, char_le_iff] at hu
      have h1 : 'Z'.toNat = 90 := rfl
      have h2 : 'z'.toNat = 122 := rfl
      have h3 : '9'.toNat = 57 := rfl
      rcases hu with hu | hu | hu | rfl | rfl | rfl | rfl
      · omega
      · omega
      · omega
      all_goals decide
    · decide

/-! ### C16 -/

/-- C16 in full: a URL parser finds the offer under `credential_offer`. -/
def C16_statement : Prop := ∀ (m : CredentialIssuerMetadata) (cs : CredentialOrIds)
  (endpoint : Option Str) (a : Option AuthorizedCodeFlow) (p : Option PreAuthorizedCodeFlow)
  (offer : CredentialOffer) (url : Str), createOffer m cs endpoint a p = .ok (offer, url) →
    ∃ v, (str! "credential_offer", v) ∈ urlParams url ∧ urlDecode v = some offer.ser.print

theorem not_mem_param (c : Char) (h1 : c ∉ str! "credential_offer=") (h2 : ¬ Unreserved c)
    (h3 : c ≠ '%') (s : Str) : c ∉ str! "credential_offer=" ++ urlencode s := by
  intro hm
  rcases List.mem_append.1 hm with hm | hm
  · exact h1 hm
  · exact payload_not_mem (payload_urlencode s) c h2 h3 hm

/-- Every deep link created without an endpoint has no query at all. -/
theorem C16_deep_link_has_no_query (m : CredentialIssuerMetadata) (cs : CredentialOrIds)
    (a : Option AuthorizedCodeFlow) (p : Option PreAuthorizedCodeFlow) (offer : CredentialOffer)
    (url : Str) (h : createOffer m cs none a p = .ok (offer, url)) : urlParams url = [] := by
  have hu := createOffer_url _ _ _ _ _ _ _ h
  have hq : ∀ c : Char, c ∉ str! "openid-credential-offer://" → c ∉ str! "credential_offer=" →
      ¬ Unreserved c → c ≠ '%' → c ∉ url := by
    intro c h0 h1 h2 h3 hm
    rw [hu, List.append_assoc] at hm
    rcases List.mem_append.1 hm with hm | hm
    · exact h0 hm
    · exact not_mem_param c h1 h2 h3 _ hm
  have e : query url = none := by
    unfold query
    rw [cut_not_mem (hq '#' (by decide) (by decide) (by decide) (by decide))]
    simp only
    rw [cut_not_mem (hq '?' (by decide) (by decide) (by decide) (by decide))]
  simp [urlParams, e]

/-- C16 is violated. -/
theorem C16_refuted : ¬ C16_statement := by
  intro h
  obtain ⟨⟨o, u⟩, hr⟩ := (C12_create_offer .default [] none none none).1.2
    ⟨by simp [DistinctIds, CredentialIssuerMetadata.default], rfl, by simp⟩
  obtain ⟨v, hv, -⟩ := h _ _ _ _ _ o u hr
  rw [C16_deep_link_has_no_query _ _ _ _ _ _ hr] at hv
  cases hv

/-- It is also violated for an endpoint that already has a query. -/
theorem C16_endpoint_with_query_fails : ∃ (offer : CredentialOffer) (url : Str),
    createOffer .default [] (some (str! "https://w/?a=b")) none none = .ok (offer, url) ∧
    ∀ v, (str! "credential_offer", v) ∉ urlParams url := by
  refine ⟨CredentialOffer.new [] [] none none,
    str! "https://w/?a=b?credential_offer=%7B%22credential_issuer%22%3A%22%22%2C%22credentials%22%3A%5B%5D%2C%22grants%22%3A%7B%7D%7D",
    by decide +kernel, ?_⟩
  intro v hv
  unfold urlParams at hv
  rw [show query _ = some (str! "a=b?credential_offer=%7B%22credential_issuer%22%3A%22%22%2C%22credentials%22%3A%5B%5D%2C%22grants%22%3A%7B%7D%7D")
    by decide +kernel] at hv
  simp only at hv
  rw [params, show cut '&' _ = (str! "a=b?credential_offer=%7B%22credential_issuer%22%3A%22%22%2C%22credentials%22%3A%5B%5D%2C%22grants%22%3A%7B%7D%7D", none)
    by decide +kernel] at hv
  simp [cut] at hv

/-- C16, partial: for an endpoint without query and fragment, `credential_offer` is the only
parameter of the URL and its value decodes to the offer's JSON text. Missing: no endpoint, and
endpoints with a query or fragment (false for the former two, see above). -/
theorem C16_endpoint_partial (m : CredentialIssuerMetadata) (cs : CredentialOrIds)
    (endpoint : Str) (a : Option AuthorizedCodeFlow) (p : Option PreAuthorizedCodeFlow)
    (offer : CredentialOffer) (url : Str) (hq : '?' ∉ endpoint) (hf : '#' ∉ endpoint)
    (h : createOffer m cs (some endpoint) a p = .ok (offer, url)) :
    ∃ v, urlParams url = [(str! "credential_offer", v)] ∧ urlDecode v = some offer.ser.print := by
  refine ⟨urlencode offer.ser.print, ?_, urlDecode_urlencode _⟩
  have hu := createOffer_url _ _ _ _ _ _ _ h
  simp only [offerUrlPrefix, List.append_assoc] at hu
  have hh : '#' ∉ url := by
    intro hm
    rw [hu] at hm
    rcases List.mem_append.1 hm with hm | hm
    · exact hf hm
    · rcases List.mem_append.1 hm with hm | hm
      · exact absurd hm (by decide)
      · exact not_mem_param '#' (by decide) (by decide) (by decide) _ hm
  have e : query url = some (str! "credential_offer=" ++ urlencode offer.ser.print) := by
    unfold query
    rw [cut_not_mem hh]
    simp only
    rw [hu]
    have := cut_append (c := '?') (t := str! "credential_offer=" ++ urlencode offer.ser.print) hq
    simp only [List.cons_append, List.nil_append] at this ⊢
    rw [this]
  have hamp : '&' ∉ str! "credential_offer=" ++ urlencode offer.ser.print :=
    not_mem_param '&' (by decide) (by decide) (by decide) _
  have hcut : cut '=' (str! "credential_offer=" ++ urlencode offer.ser.print)
      = (str! "credential_offer", some (urlencode offer.ser.print)) := by
    have := cut_append (c := '=') (s := str! "credential_offer") (t := urlencode offer.ser.print)
      (by decide)
    simpa using this
  simp only [urlParams, e]
  rw [params, cut_not_mem hamp]
  simp only
  rw [hcut]
  rfl

example : ∃ r, createOffer Ex.metadata [.credentialId (str! "a")] (some (str! "https://w/offer"))
    none none = .ok r :=
  (C12_create_offer _ _ _ _ _).1.2 ⟨by rw [← metadata_validate_iff]; decide +kernel, rfl, by
    rintro c (_ | ⟨_, _ | _⟩)
    exact ⟨Ex.entry (some (str! "a")) Ex.ldp, by simp [Ex.metadata], rfl⟩⟩

/-! ### The hypotheses at the example -/

theorem Ex.distinct : DistinctIds Ex.metadata.credentialsSupported :=
  (metadata_validate_iff _).1 (by decide +kernel)
/-- C10, with known and unknown ids, and in reverse order. -/
example : (CredentialOrId.credentialId (str! "unknown")).resolve Ex.metadata
    = .err (.credentialIdNotInIssuerMetadata (str! "unknown")) :=
  (C10_resolve_id _ Ex.distinct _).2 (by unfold KnownId; decide +kernel)
example (c : CredentialOrId) : c.resolve Ex.metadata
    = c.resolve { Ex.metadata with credentialsSupported := Ex.metadata.credentialsSupported.reverse } :=
  C10_resolve_perm _ _ Ex.distinct (List.reverse_perm _).symm c
/-- C13 and C15: the created offer. -/
example : ∃ offer url, createOffer Ex.metadata [.credentialId (str! "a")] (some (str! "https://w/offer"))
      none none = .ok (offer, url) ∧ (∃ e ∈ Ex.metadata.credentialsSupported, e.id = some (str! "a")) ∧
    ∃ before payload, url = before ++ str! "credential_offer=" ++ payload ∧ '&' ∉ payload := by
  obtain ⟨⟨offer, url⟩, h⟩ := (C12_create_offer Ex.metadata [.credentialId (str! "a")] (some (str! "https://w/offer"))
    none none).1.2 ⟨Ex.distinct, rfl, by
      rintro c (_ | ⟨_, _ | _⟩)
      exact ⟨Ex.entry (some (str! "a")) Ex.ldp, by simp [Ex.metadata], rfl⟩⟩
  have hc := ((C12_create_offer _ _ _ _ _).2.1 _ _ h).2.1
  obtain ⟨before, payload, hu, -, -, hp, -⟩ := C15_payload _ _ _ _ _ _ _ h
  exact ⟨offer, url, h, C13_ids_supported_partial _ _ _ _ _ _ _ h _ (by rw [hc]; simp), before, payload, hu,
    hp '&' (by decide)⟩

end Oid4vci
