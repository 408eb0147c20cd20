import Verif.Lemmas.Unique
import Verif.Model.Errors
import Verif.Model.ErrorResponse
import Verif.Props.Offer
import Verif.Props.Jwt

/-!
C141: every document the library writes names each member once, so that all readers take the same from it.
Violated by the two types which flatten a map of the caller's next to fields of their own: metadata with
additional fields, and error responses with additional details.
-/

namespace Oid4vci

open Serde Spec

/-! ### The documents of the protocol -/

/-- JSON-LD contexts. -/
theorem C141_context (c : LinkedDataContext) (h : RustContext c) : UniqueNames c.ser := by
  cases c with
  | string s => exact uniqueNames_str s
  | map m => exact uniqueNames_map h.1 fun p hp => (h.2 p hp).1.uniqueNames

/-- Descriptions of claims. -/
theorem C141_subject (c : CredentialSubject) : UniqueNames c.ser := by
  have hd (d : CredentialSubjectDisplay) : UniqueNames d.ser := by
    obtain ⟨n, l⟩ := d
    rw [CredentialSubjectDisplay.ser, uniqueNames_obj]
    cases n <;> cases l <;> simp [skipNone, uniqueNames_str]
  obtain ⟨m, v, d⟩ := c
  rw [CredentialSubject.ser, uniqueNames_obj]
  have hv (d) : UniqueNames (serVec CredentialSubjectDisplay.ser d) := uniqueNames_vec fun a _ => hd a
  cases m <;> cases v <;> cases d <;> simp [skipNone, uniqueNames_str, uniqueNames_bool, hv]

/-- Vectors of strings. -/
theorem uniqueNames_strs (xs : List Str) : UniqueNames (serVec .str xs) :=
  uniqueNames_vec fun a _ => uniqueNames_str a

/-- Credentials. -/
theorem C141_credential (c : CredentialFormatProfile) (h : RustCredential c) : UniqueNames c.ser := by
  have hm (m : HMap CredentialSubject) (h : UniqueKeys m) : UniqueNames (serMap CredentialSubject.ser m) :=
    uniqueNames_map h fun p _ => C141_subject p.2
  cases c with
  | jwtVcJson types cs order | jwtVcJsonLd types cs order | msoMdoc types cs order =>
    rw [CredentialFormatProfile.ser, uniqueNames_obj]
    simp only [RustCredential] at h
    cases cs <;> cases order <;> simp_all [skipNone, uniqueNames_str, uniqueNames_strs]
  | ldpVc ctx types cs order =>
    rw [CredentialFormatProfile.ser, uniqueNames_obj]
    simp only [RustCredential] at h
    have hc : UniqueNames (serVec LinkedDataContext.ser ctx) :=
      uniqueNames_vec fun a ha => C141_context a (h.1 a ha)
    have h := h.2
    cases cs <;> cases order <;> simp_all [skipNone, uniqueNames_str, uniqueNames_strs]

/-- Offers. -/
theorem C141_offer (o : CredentialOffer) (h : ∀ c ∈ o.credentials, RustEntry c) : UniqueNames o.ser := by
  obtain ⟨i, cs, ⟨a, p⟩⟩ := o
  have hc : UniqueNames (serVec CredentialOrId.ser cs) := by
    refine uniqueNames_vec fun c hc => ?_
    cases c with
    | credentialId s => exact uniqueNames_str s
    | credential c => exact C141_credential c (h _ hc)
  have ha (a : AuthorizedCodeFlow) : UniqueNames a.ser := by
    rw [AuthorizedCodeFlow.ser, uniqueNames_obj]
    simp [uniqueNames_opt fun a _ => uniqueNames_str a]
  have hp (p : PreAuthorizedCodeFlow) : UniqueNames p.ser := by
    obtain ⟨c, u⟩ := p
    rw [PreAuthorizedCodeFlow.ser, uniqueNames_obj]
    cases u <;> simp [skipNone, uniqueNames_str, uniqueNames_bool]
  have hg : UniqueNames (CredentialOfferGrants.ser ⟨a, p⟩) := by
    rw [CredentialOfferGrants.ser, uniqueNames_obj]
    cases a <;> cases p <;> simp [skipNone, ha, hp]
  rw [CredentialOffer.ser, uniqueNames_obj]
  refine ⟨by simp only [List.map_cons, List.map_nil]; decide +kernel, ?_⟩
  simp [uniqueNames_str, hc, hg]

/-- Token requests. -/
theorem C141_token_request (r : AccessTokenRequest) : UniqueNames r.ser := by
  obtain ⟨g⟩ := r
  have hg : UniqueNames g.ser := by
    cases g with
    | authorizedCodeFlow => rw [GrantType.ser, uniqueNames_obj]; simp [uniqueNames_str]
    | preAuthorizedCodeFlow code pin =>
      rw [GrantType.ser, uniqueNames_obj]
      refine ⟨by simp only [List.map_cons, List.map_nil]; decide +kernel, ?_⟩
      simp [uniqueNames_str, uniqueNames_opt fun a _ => uniqueNames_u64 a]
  rw [AccessTokenRequest.ser, uniqueNames_obj]
  simp [hg]

/-- Token responses. -/
theorem C141_token_response (r : AccessTokenSuccessResponse) : UniqueNames r.ser := by
  rw [AccessTokenSuccessResponse.ser, uniqueNames_obj]
  refine ⟨by simp only [List.map_cons, List.map_nil]; decide +kernel, ?_⟩
  have ht : UniqueNames r.tokenType.ser := by cases r.tokenType; exact uniqueNames_str _
  simp [uniqueNames_str, ht, uniqueNames_opt fun a _ => uniqueNames_u32 a,
    uniqueNames_opt fun a _ => uniqueNames_str a, uniqueNames_opt fun a _ => uniqueNames_bool a]

/-- The members of a credential. -/
theorem uniqueNames_members (c : CredentialFormatProfile) (h : RustCredential c) :
    (c.members.map Prod.fst).Nodup ∧ (∀ p ∈ c.members, UniqueNames p.2) ∧
      ∀ n ∈ c.members.map Prod.fst, n ∈ [str! "format", str! "types", str! "@context", str! "doctype",
        str! "credentialSubject", str! "claims", str! "order"] := by
  have hs : c.ser = .obj c.members := by cases c <;> rfl
  have := C141_credential c h
  rw [hs, uniqueNames_obj] at this
  refine ⟨this.1, this.2, ?_⟩
  cases c with
  | jwtVcJson types cs order | jwtVcJsonLd types cs order | ldpVc _ types cs order | msoMdoc types cs order =>
    rw [CredentialFormatProfile.members, CredentialFormatProfile.ser]
    cases cs <;> cases order <;> simp [skipNone]

/-- Credential requests. -/
theorem C141_request (r : CredentialRequest) (h : RustCredential r.format) : UniqueNames r.ser := by
  obtain ⟨hn, hu, hm⟩ := uniqueNames_members r.format h
  have hp (p : CredentialRequestProof) : UniqueNames p.ser := by
    rw [CredentialRequestProof.ser, uniqueNames_obj]
    refine ⟨by simp only [List.map_cons, List.map_nil]; decide +kernel, ?_⟩
    simp [uniqueNames_str]
  rw [CredentialRequest.ser, uniqueNames_obj]
  constructor
  · rw [List.map_append, List.nodup_append]
    refine ⟨hn, by simp, ?_⟩
    rintro a ha b hb rfl
    have := hm a ha
    simp only [List.map_cons, List.map_nil, List.mem_singleton] at hb
    subst hb
    revert this; decide +kernel
  · intro p hp'
    rcases List.mem_append.1 hp' with hp' | hp'
    · exact hu p hp'
    · rw [List.mem_singleton.1 hp']
      exact uniqueNames_opt fun a _ => hp a

/-- Credential responses. -/
theorem C141_response (r : CredentialSuccessResponse)
    (h : ∀ c, r.credential = some (.credentialFormatProfile c) → RustCredential c) : UniqueNames r.ser := by
  rw [CredentialSuccessResponse.ser, uniqueNames_obj]
  refine ⟨by simp only [List.map_cons, List.map_nil]; decide +kernel, ?_⟩
  have hc : UniqueNames (serOpt CredentialFormatProfileOrEncoded.ser r.credential) := by
    refine uniqueNames_opt fun a ha => ?_
    cases a with
    | credentialFormatProfile c =>
      rw [CredentialFormatProfileOrEncoded.ser, uniqueNames_obj]
      simp [C141_credential c (h c ha)]
    | encoded s =>
      rw [CredentialFormatProfileOrEncoded.ser, uniqueNames_obj]
      simp [uniqueNames_str]
  have hn : UniqueNames (serOpt (fun n : UInt32 => .num n.toNat) r.cNonceExpiresIn) :=
    uniqueNames_opt fun a _ => uniqueNames_num _
  simp [uniqueNames_str, uniqueNames_opt fun a _ => uniqueNames_str a, hc, hn]

/-- Proofs' headers. -/
theorem C141_header (h : ProofJwtHeader) : UniqueNames h.ser := by
  obtain ⟨t, a, e⟩ := h
  rw [ProofJwtHeader.ser, uniqueNames_obj]
  have ha : UniqueNames a.ser := by cases a <;> exact uniqueNames_str _
  rcases e with _ | e
  · refine ⟨by simp only [List.map_append, List.map_cons, List.map_nil, Option.map_none,
      Option.toList_none]; decide +kernel, ?_⟩
    simp [uniqueNames_str, ha]
  · cases e <;> refine ⟨by simp only [List.map_append, List.map_cons, List.map_nil, Option.map_some,
      Option.toList_some, ProofJwtAdditionalHeader.member]; decide +kernel, ?_⟩ <;>
    simp [uniqueNames_str, ha, ProofJwtAdditionalHeader.member]

/-- Proofs' bodies. -/
theorem C141_body (x : Ext) (b : ProofJwtBody) : UniqueNames (b.ser x) := by
  obtain ⟨i, a, s, t, n, nb, e⟩ := b
  rw [ProofJwtBody.ser, uniqueNames_obj]
  cases i <;> cases nb <;> cases e <;>
    refine ⟨by simp only [skipNone, List.map_append, List.map_cons, List.map_nil]; decide +kernel, ?_⟩ <;>
    simp [skipNone, uniqueNames_str, uniqueNames_time, uniqueNames_opt fun a _ => uniqueNames_str a]

/-! ### The documents of the application -/

/-- Stored nonces. -/
theorem C141_nonce_options (x : Ext) (o : CNonceOptions) : UniqueNames (o.ser x) := by
  rw [CNonceOptions.ser, uniqueNames_obj]
  refine ⟨by simp only [List.map_cons, List.map_nil]; decide +kernel, ?_⟩
  simp [uniqueNames_str, uniqueNames_u32, uniqueNames_time]

/-- Options of the credential request. -/
theorem C141_request_options (x : Ext) (o : EvaluateCredentialRequestOptions) : UniqueNames (o.ser x) := by
  rw [EvaluateCredentialRequestOptions.ser, uniqueNames_obj]
  refine ⟨by simp only [List.map_cons, List.map_nil]; decide +kernel, ?_⟩
  simp [uniqueNames_opt fun a _ => uniqueNames_str a, uniqueNames_opt fun a _ => C141_nonce_options x a]

/-- Nonces. -/
theorem C141_nonce (c : CNonce) : UniqueNames c.ser := by
  rw [CNonce.ser, uniqueNames_obj]
  refine ⟨by simp only [List.map_cons, List.map_nil]; decide +kernel, ?_⟩
  simp [uniqueNames_str, uniqueNames_opt fun a _ => uniqueNames_u32 a]

/-- Options of the token request. -/
theorem C141_token_options (o : EvaluateAccessTokenRequestOptions) : UniqueNames o.ser := by
  rw [EvaluateAccessTokenRequestOptions.ser, uniqueNames_obj]
  simp [uniqueNames_opt fun a _ => uniqueNames_u64 a]

/-- Authorization server metadata. -/
theorem C141_server (m : AuthorizationServerMetadata) : UniqueNames m.ser := by
  rw [AuthorizationServerMetadata.ser, uniqueNames_obj]
  simp

/-- Proofs, not in the compact form. -/
theorem C141_jwt (x : Ext) (j : ProofJwt) : UniqueNames (j.ser x) := by
  rw [ProofJwt.ser, uniqueNames_obj]
  refine ⟨by simp only [List.map_cons, List.map_nil]; decide +kernel, ?_⟩
  simp [C141_header, C141_body, uniqueNames_opt fun a _ => uniqueNames_str a]

/-- The first result. -/
theorem C141_pre_result (r : PreEvaluateCredentialRequestResponse) : UniqueNames r.ser := by
  obtain ⟨d⟩ := r
  rw [PreEvaluateCredentialRequestResponse.ser, uniqueNames_obj]
  cases d <;> simp [skipNone, uniqueNames_str]

/-- The second result. -/
theorem C141_result (r : CredentialIssuerEvaluateRequestResponse) (h : RustCredential r.credential) :
    UniqueNames r.ser := by
  have hb (b : Bytes) : UniqueNames (serBytes b) := uniqueNames_vec fun a _ => uniqueNames_num _
  have hp (p : ProofOfPossession) : UniqueNames p.ser := by
    rw [ProofOfPossession.ser, uniqueNames_obj]
    refine ⟨by simp only [List.map_cons, List.map_nil]; decide +kernel, ?_⟩
    have ha : UniqueNames p.algorithm.ser := by cases p.algorithm <;> exact uniqueNames_str _
    simp [ha, hb]
  rw [CredentialIssuerEvaluateRequestResponse.ser, uniqueNames_obj]
  refine ⟨by simp only [List.map_cons, List.map_nil]; decide +kernel, ?_⟩
  simp [uniqueNames_opt fun a _ => hp a, uniqueNames_opt fun a _ => uniqueNames_str a,
    C141_credential _ h]

/-- The information of an error, whatever the error. -/
theorem C141_information (code : UInt32) (name description : Str) (j : Option Json) :
    UniqueNames (ErrorInformation.ser (.new code name description (j.map Serde.value))) := by
  rw [ErrorInformation.ser, uniqueNames_obj]
  have hv (j) : UniqueNames (Serde.value j) := (value_isNormal j).uniqueNames
  cases j <;> refine ⟨by simp only [ErrorInformation.new, skipNone, Option.map_none, Option.map_some,
    List.map_append, List.map_cons, List.map_nil]; decide +kernel, ?_⟩ <;>
  simp [ErrorInformation.new, skipNone, uniqueNames_str, uniqueNames_num, hv]

/-- Return objects. -/
theorem C141_return {T E W : Type} {fT : T → Json} {fE : E → Json} {fW : W → Json}
    (r : ReturnObject T E W) (hT : ∀ t, UniqueNames (fT t)) (hE : ∀ e, UniqueNames (fE e))
    (hW : ∀ w, UniqueNames (fW w)) : UniqueNames (r.ser fT fE fW) := by
  obtain ⟨i, e, w⟩ := r
  have hv (w) : UniqueNames (serVec fW w) := uniqueNames_vec fun a _ => hW a
  rw [ReturnObject.ser, uniqueNames_obj]
  cases i <;> cases e <;> cases w <;>
    refine ⟨by simp only [skipNone, List.map_append, List.map_cons, List.map_nil]; decide +kernel, ?_⟩ <;>
    simp [skipNone, hT, hE, hv]

/-! ### The two which flatten a map of the caller's -/

/-- Descriptions of credentials in the metadata. -/
theorem C141_supported (c : CredentialSupported) (h : RustCredential c.format) : UniqueNames c.ser := by
  obtain ⟨hn, hu, hm⟩ := uniqueNames_members c.format h
  have hl (l : DisplayLogo) : UniqueNames l.ser := by
    rw [DisplayLogo.ser, uniqueNames_obj]
    refine ⟨by simp only [List.map_cons, List.map_nil]; decide +kernel, ?_⟩
    simp [uniqueNames_opt fun a _ => uniqueNames_str a]
  have hd (d : DisplayProperties) : UniqueNames d.ser := by
    rw [DisplayProperties.ser, uniqueNames_obj]
    refine ⟨by simp only [List.map_cons, List.map_nil]; decide +kernel, ?_⟩
    simp [uniqueNames_str, uniqueNames_opt fun a _ => uniqueNames_str a, uniqueNames_opt fun a _ => hl a]
  rw [CredentialSupported.ser, uniqueNames_obj]
  constructor
  · rw [List.map_append, List.nodup_append]
    refine ⟨hn, by simp only [List.map_cons, List.map_nil]; decide +kernel, ?_⟩
    rintro a ha b hb rfl
    have := hm a ha
    simp only [List.map_cons, List.map_nil] at hb
    revert this
    generalize h1 : [str! "format", str! "types", str! "@context", str! "doctype",
        str! "credentialSubject", str! "claims", str! "order"] = l1
    revert hb
    generalize h2 : [str! "id", str! "cryptographic_binding_mehtods_supported",
      str! "cryptographic_suites_supported", str! "display"] = l2
    have : ∀ a ∈ l2, a ∉ l1 := by subst h1 h2; decide +kernel
    exact this a
  · intro p hp0
    rcases List.mem_append.1 hp0 with hp | hp
    · exact hu p hp
    · clear hp0
      revert p
      simp [uniqueNames_opt fun a _ => uniqueNames_str a, uniqueNames_opt fun a _ => uniqueNames_strs a,
        uniqueNames_opt fun a _ => uniqueNames_vec fun a _ => hd a]

/-- Metadata names each member once exactly if no additional field has the name of another field. -/
theorem C141_metadata_partial (m : CredentialIssuerMetadata)
    (hs : ∀ c ∈ m.credentialsSupported, RustCredential c.format) (hf : RustFields m.additionalFields) :
    UniqueNames m.ser ↔ ∀ f ∈ m.additionalFields, ∀ n ∈ metadataFields, n ∉ f.map Prod.fst := by
  obtain ⟨i, s, e, b, cs, a⟩ := m
  have hc : UniqueNames (serVec CredentialSupported.ser cs) :=
    uniqueNames_vec fun c hc => C141_supported c (hs c hc)
  have hk : metadataFields.Nodup := by decide +kernel
  have hn : ([(str! "credential_issuer", Json.str i), (str! "authorization_server", serOpt .str s),
     (str! "credential_endpoint", .str e), (str! "batch_credential_endpoint", serOpt .str b),
     (str! "credentials_supported", serVec CredentialSupported.ser cs)].map Prod.fst) = metadataFields := rfl
  rw [CredentialIssuerMetadata.ser, uniqueNames_obj, List.map_append, hn, List.nodup_append]
  cases a with
  | none => simp [hk, uniqueNames_str, uniqueNames_opt fun a _ => uniqueNames_str a, hc]
  | some f =>
    obtain ⟨hu, hv⟩ := hf f rfl
    have hv (p) (hp : p ∈ f) : UniqueNames p.2 := (hv p hp).1.uniqueNames
    constructor
    · rintro ⟨⟨_, _, h⟩, _⟩ g hg n hn hn'
      cases hg
      exact h n hn n hn' rfl
    · intro h
      refine ⟨⟨hk, hu, ?_⟩, ?_⟩
      · rintro a ha b hb rfl
        exact h f rfl a ha hb
      · intro p hp0
        rcases List.mem_append.1 hp0 with hp | hp
        · clear hp0
          revert p
          simp [uniqueNames_str, uniqueNames_opt fun a _ => uniqueNames_str a, hc]
        · exact hv p hp

/-- An error response names each member once exactly if its details have none of its own three names. -/
theorem C141_error_partial {T : Type} (x : Ext) (serT : T → Json) (ht : ∀ t, UniqueNames (serT t))
    (r : ErrorResponse T) (hd : ∀ d ∈ r.errorAdditionalDetails, Normal d) (j : Json)
    (h : r.ser x serT = some j) :
    UniqueNames j ↔ ∀ kvs, r.errorAdditionalDetails = some (.obj kvs) →
      ∀ n ∈ errorFields, n ∉ kvs.map Prod.fst := by
  obtain ⟨e, d, u, a⟩ := r
  have hk : errorFields.Nodup := by decide +kernel
  have hn : ([(str! "error", serT e), (str! "error_description", serOpt .str d),
      (str! "error_uri", serOpt .str u)].map Prod.fst) = errorFields := rfl
  have hu (p) (hp : p ∈ [(str! "error", serT e), (str! "error_description", serOpt .str d),
      (str! "error_uri", serOpt .str u)]) : UniqueNames p.2 := by
    revert p
    simp [ht, uniqueNames_opt fun a _ => uniqueNames_str a]
  rw [ErrorResponse.ser] at h
  have hnil (h : some (Json.obj ([(str! "error", serT e), (str! "error_description", serOpt .str d),
      (str! "error_uri", serOpt .str u)] ++ [])) = some j) : UniqueNames j := by
    cases h
    rw [uniqueNames_obj, List.append_nil, hn]
    exact ⟨hk, hu⟩
  rcases a with _ | a
  · simp only [flattenDetails] at h
    simp [hnil h]
  · cases a with
    | obj kvs =>
      simp only [flattenDetails, Option.some.injEq] at h
      subst h
      have hv := (hd _ rfl).uniqueNames
      rw [uniqueNames_obj] at hv
      rw [uniqueNames_obj, List.map_append, hn, List.nodup_append]
      constructor
      · rintro ⟨⟨_, _, h⟩, _⟩ g hg n hn hn'
        cases hg
        exact h n hn n hn' rfl
      · intro h
        refine ⟨⟨hk, hv.1, ?_⟩, ?_⟩
        · rintro a ha b hb rfl
          exact h kvs rfl a ha hb
        · intro p hp
          rcases List.mem_append.1 hp with hp | hp
          · exact hu p hp
          · exact hv.2 p hp
    | null =>
      simp only [flattenDetails] at h
      split at h <;> simp_all
    | _ => simp [flattenDetails] at h

/-! ### Where metadata comes from, and who reads it -/

/-- A field which is read occurs at most once. -/
theorem fields_once {names : List Str} {kvs : List (Str × Json)} {os : List (Option Json)}
    (h : fields names kvs = some os) : ∀ n ∈ names, (occurrences n kvs).length ≤ 1 := by
  induction names generalizing os with
  | nil => simp
  | cons k ks ih =>
    rw [fields] at h
    split at h <;> rename_i ho hos
    · intro n hn
      rcases List.mem_cons.1 hn with rfl | hn
      · rw [field] at ho
        split at ho <;> simp_all
      · exact ih hos n hn
    · cases h

/-- The keys of a map were member names. -/
theorem entries_keys {α : Type} {d : De α} {acc m : HMap α} {kvs : List (Str × Json)}
    (h : entries d acc kvs = some m) (n : Str) (hn : n ∈ m.map Prod.fst) :
    n ∈ acc.map Prod.fst ∨ n ∈ kvs.map Prod.fst := by
  induction kvs generalizing acc with
  | nil => simp only [entries, Option.some.injEq] at h; subst h; exact .inl hn
  | cons p kvs ih =>
    obtain ⟨k, j⟩ := p
    rw [entries] at h
    split at h
    · rename_i a _
      rcases ih h with hh | hh
      · have : ∀ acc : HMap α, n ∈ (hinsert acc k a).map Prod.fst → n ∈ acc.map Prod.fst ∨ n = k := by
          intro acc
          induction acc with
          | nil => simp [hinsert]
          | cons q acc ih' =>
            obtain ⟨k', v'⟩ := q
            rw [hinsert]
            split
            · rename_i he; subst he; simp only [List.map_cons]; exact fun h => .inl h
            · simp only [List.map_cons, List.mem_cons]
              rintro (rfl | hh)
              · exact .inl (.inl rfl)
              · rcases ih' hh with hh | hh
                · exact .inl (.inr hh)
                · exact .inr hh
        rcases this acc hh with hh | rfl
        · exact .inl hh
        · exact .inr (by simp)
      · exact .inr (by simp [hh])
    · cases h

/-- Metadata that was read has no such additional field. -/
theorem C141_metadata_read (j : Json) (m : CredentialIssuerMetadata)
    (h : CredentialIssuerMetadata.de j = some m) :
    ∀ f ∈ m.additionalFields, ∀ n ∈ metadataFields, n ∉ f.map Prod.fst := by
  rw [CredentialIssuerMetadata.de] at h
  split at h
  · rename_i issuer server endpoint batch supported rest hs
    simp only [Option.bind_eq_bind, Option.bind_eq_some_iff, Option.some.injEq] at h
    obtain ⟨_, _, _, _, _, _, _, _, _, _, a, ha, rfl⟩ := h
    intro f hf n hn hm
    cases hf
    rcases entries_keys ha n hm with h1 | h1
    · simp at h1
    · cases j with
      | obj kvs =>
        simp only [structFlat, Option.map_eq_some_iff, Prod.mk.injEq] at hs
        obtain ⟨_, _, _, rfl⟩ := hs
        obtain ⟨p, hp, rfl⟩ := List.mem_map.1 h1
        exact (of_decide_eq_true (List.mem_filter.1 hp).2) hn
      | _ => simp [structFlat] at hs
  · cases h

/-- Metadata with such an additional field is published all the same, and read by nobody: the library's own
reader, which knows these fields, rejects it. -/
theorem C141_metadata_unreadable (m : CredentialIssuerMetadata) (f : HMap Json)
    (hf : m.additionalFields = some f) (n : Str) (hn : n ∈ metadataFields) (hm : n ∈ f.map Prod.fst) :
    CredentialIssuerMetadata.de m.ser = none := by
  rw [CredentialIssuerMetadata.ser, CredentialIssuerMetadata.de, structFlat]
  cases h : fields [str! "credential_issuer", str! "authorization_server",
      str! "credential_endpoint", str! "batch_credential_endpoint",
      str! "credentials_supported"] ([(str! "credential_issuer", .str m.credentialIssuer),
     (str! "authorization_server", serOpt .str m.authorizationServer),
     (str! "credential_endpoint", .str m.credentialEndpoint),
     (str! "batch_credential_endpoint", serOpt .str m.batchCredentialEndpoint),
     (str! "credentials_supported", serVec CredentialSupported.ser m.credentialsSupported)]
    ++ (m.additionalFields.getD [])) with
  | none => simp
  | some os =>
    exfalso
    have := fields_once h n hn
    rw [hf, Option.getD_some, occurrences, List.filter_append, List.map_append, List.length_append] at this
    have h2 : 1 ≤ ((f.filter fun p => decide (p.1 = n)).map Prod.snd).length := by
      obtain ⟨p, hp, rfl⟩ := List.mem_map.1 hm
      rw [List.length_map]
      exact List.length_pos_of_mem (List.mem_filter.2 ⟨hp, by simp⟩)
    have h1 : ∀ {l : List (Str × Json)}, l.map Prod.fst = metadataFields →
        1 ≤ ((l.filter fun p => decide (p.1 = n)).map Prod.snd).length := by
      intro l hl
      rw [← hl] at hn
      obtain ⟨p, hp, rfl⟩ := List.mem_map.1 hn
      rw [List.length_map]
      exact List.length_pos_of_mem (List.mem_filter.2 ⟨hp, by simp⟩)
    have h1 := h1 (l := [(str! "credential_issuer", .str m.credentialIssuer),
     (str! "authorization_server", serOpt .str m.authorizationServer),
     (str! "credential_endpoint", .str m.credentialEndpoint),
     (str! "batch_credential_endpoint", serOpt .str m.batchCredentialEndpoint),
     (str! "credentials_supported", serVec CredentialSupported.ser m.credentialsSupported)]) rfl
    omega

/-- The names of a `serde_json::Value` were member names. -/
theorem valueEntries_keys {acc kvs : List (Str × Json)} {n : Str}
    (hn : n ∈ (valueEntries acc kvs).map Prod.fst) : n ∈ acc.map Prod.fst ∨ n ∈ kvs.map Prod.fst := by
  induction kvs generalizing acc with
  | nil => rw [valueEntries] at hn; exact .inl hn
  | cons p kvs ih =>
    obtain ⟨k, j⟩ := p
    rw [valueEntries] at hn
    rcases ih hn with hh | hh
    · obtain ⟨q, hq, rfl⟩ := List.mem_map.1 hh
      rcases binsert_mem hq with rfl | hq
      · exact .inr (by simp)
      · exact .inl (List.mem_map.2 ⟨q, hq, rfl⟩)
    · exact .inr (by rw [List.map_cons]; exact List.mem_cons_of_mem _ hh)

/-- Error responses which carry the library's own information on an error are in order. -/
theorem C141_error_information {T : Type} (x : Ext) (serT : T → Json) (ht : ∀ t, UniqueNames (serT t))
    (e : T) (d u : Option Str) (code : UInt32) (name description : Str) (a : Option Json) (j : Json)
    (h : ErrorResponse.ser x serT ⟨e, d, u,
      some (Serde.value (ErrorInformation.ser (.new code name description a)))⟩ = some j) :
    UniqueNames j := by
  refine (C141_error_partial x serT ht _ (fun d hd => ?_) j h).2 ?_
  · cases hd
    exact value_isNormal _
  · intro kvs hk n hn hm
    simp only [ErrorInformation.ser, ErrorInformation.new, Serde.value, Option.some.injEq, Json.obj.injEq]
      at hk
    subst hk
    have hn' : n ∉ [str! "code", str! "name", str! "description", str! "additional_information"] := by
      clear hm
      revert n
      decide +kernel
    rcases valueEntries_keys hm with h1 | h1
    · simp at h1
    · refine hn' ?_
      cases a
      · simp [skipNone] at h1
        simp only [List.mem_cons]
        tauto
      · simp [skipNone] at h1
        simp only [List.mem_cons]
        tauto

/-- C141, for the two documents with members of the caller's choice. -/
def C141_statement : Prop :=
  (∀ m : CredentialIssuerMetadata, (∀ c ∈ m.credentialsSupported, RustCredential c.format) →
    RustFields m.additionalFields → UniqueNames m.ser) ∧
  ∀ (x : Ext) (r : ErrorResponse CredentialIssuerErrorCode) (j : Json),
    (∀ d ∈ r.errorAdditionalDetails, Normal d) → r.ser x CredentialIssuerErrorCode.ser = some j →
    UniqueNames j

/-- Metadata whose owner describes the endpoint once more, among the additional fields. -/
def Ex.twofold : CredentialIssuerMetadata :=
  ⟨str! "https://issuer", none, str! "https://issuer/credential", none, [],
    some [(str! "logo_uri", .str (str! "https://issuer/logo")),
      (str! "credential_endpoint", .str (str! "https://other/credential"))]⟩

/-- It is written with two endpoints: of these, a reader that takes the last sends its requests to the
second, one that takes the first to the first. -/
theorem C141_two_endpoints : occurrences (str! "credential_endpoint")
    (match Ex.twofold.ser with | .obj kvs => kvs | _ => []) =
    [.str (str! "https://issuer/credential"), .str (str! "https://other/credential")] := by
  decide +kernel

/-- C141 does not hold. -/
theorem C141_refuted : ¬ C141_statement := by
  intro h
  have := h.1 Ex.twofold (by simp [Ex.twofold]) (by
    intro m hm
    cases hm
    refine ⟨by unfold UniqueKeys; decide +kernel, ?_⟩
    simp [RustValue, Normal, RustNumbers])
  rw [C141_metadata_partial _ (by simp [Ex.twofold]) (by
    intro m hm
    cases hm
    refine ⟨by unfold UniqueKeys; decide +kernel, ?_⟩
    simp [RustValue, Normal, RustNumbers])] at this
  exact this _ rfl (str! "credential_endpoint") (by decide +kernel) (by decide +kernel)

/-- Nor does either half. -/
theorem C141_refuted_error : ∃ (r : ErrorResponse CredentialIssuerErrorCode) (j : Json),
    (∀ d ∈ r.errorAdditionalDetails, Normal d) ∧ r.ser Ex.ext CredentialIssuerErrorCode.ser = some j ∧
      ¬ UniqueNames j := by
  refine ⟨⟨.invalidRequest, none, none, some (.obj [(str! "error", .str (str! "details"))])⟩, _, ?_, rfl, ?_⟩
  · intro d hd
    cases hd
    simp [Normal, NormalMembers]
  · rw [uniqueNames_obj]
    intro h
    exact absurd h.1 (by decide +kernel)

/-! ### Examples -/

/-- Metadata with additional fields of its own. -/
example : UniqueNames (CredentialIssuerMetadata.ser ⟨str! "https://issuer", none,
    str! "https://issuer/credential", none, [Ex.entry none Ex.ldp, Ex.entry (some (str! "a")) Ex.mdoc],
    some [(str! "logo_uri", .str (str! "https://issuer/logo"))]⟩) := by
  refine (C141_metadata_partial _ ?_ ?_).2 ?_
  · simp [Ex.entry, Ex.ldp, Ex.mdoc, RustCredential, RustContext]
  · intro m hm
    cases hm
    refine ⟨by unfold UniqueKeys; decide +kernel, ?_⟩
    simp [RustValue, Normal, RustNumbers]
  · intro f hf
    cases hf
    decide +kernel

/-- A document with a name twice, two levels down. -/
example : ¬ UniqueNames (.arr [.obj [(str! "a", .obj [(str! "b", .null), (str! "b", .null)])]]) := by
  simp [UniqueNames, UniqueNamesList, UniqueNamesMembers]

example : CredentialIssuerMetadata.de Ex.twofold.ser = none :=
  C141_metadata_unreadable _ _ rfl (str! "credential_endpoint") (by decide +kernel) (by decide +kernel)

end Oid4vci
