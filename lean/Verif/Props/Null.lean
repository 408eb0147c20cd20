import Verif.Spec.Null
import Verif.Props.Order

/-!
C144. A member that is `null` is read like one that is left out, as long as its name is in the object once: the
optional members of every type, and those a type does not know.

Three types do otherwise. The default of `proof_type` is for the member that is left out only
(`C144_refuted_proof`). Of `kid`, `jwk` and `x5c` in a header the first one counts even if it is `null`, and hides
the others (`C144_refuted_header`). The other members of issuer metadata are kept, `null` or not
(`C144_refuted_metadata`).
-/

namespace Oid4vci

open Serde Spec

/-- What a field gets from objects with and without a member that is `null`. -/
def Dropped (o o' : Option Json) : Prop := o = o' ∨ (o = some .null ∧ o' = none)

theorem occurrences_append (k : Str) (a b : List (Str × Json)) :
    occurrences k (a ++ b) = occurrences k a ++ occurrences k b := by
  simp [occurrences]

theorem occurrences_fresh {k : Str} {a : List (Str × Json)} (h : k ∉ a.map Prod.fst) : occurrences k a = [] := by
  simp only [occurrences, List.map_eq_nil_iff, List.filter_eq_nil_iff, decide_eq_true_eq]
  rintro p hp rfl
  exact h (List.mem_map_of_mem hp)

theorem field_null {kvs kvs' : List (Str × Json)} (h : NullAdded kvs kvs') (k : Str) :
    Option.Rel Dropped (field k kvs') (field k kvs) := by
  obtain ⟨a, b, n, rfl, rfl, hn⟩ := h
  rw [List.map_append, List.mem_append, not_or] at hn
  unfold field
  rw [occurrences_append, occurrences_append]
  by_cases hk : n = k
  · subst hk
    have h1 : occurrences n ((n, Json.null) :: b) = .null :: occurrences n b := by simp [occurrences]
    rw [h1, occurrences_fresh hn.1, occurrences_fresh hn.2]
    exact .some (.inr ⟨rfl, rfl⟩)
  · have h1 : occurrences k ((n, Json.null) :: b) = occurrences k b := by simp [occurrences, hk]
    rw [h1]
    split
    · exact .some (.inl rfl)
    · exact .some (.inl rfl)
    · exact .none

theorem fields_null {kvs kvs' : List (Str × Json)} (h : NullAdded kvs kvs') (ks : List Str) :
    Option.Rel (List.Forall₂ Dropped) (fields ks kvs') (fields ks kvs) := by
  induction ks with
  | nil => exact .some .nil
  | cons k ks ih =>
    have h1 := field_null h k
    simp only [fields]
    revert h1 ih
    generalize field k kvs' = a, field k kvs = b, fields ks kvs' = c, fields ks kvs = d
    intro ih h1
    cases h1 <;> cases ih
    · rename_i h1 _ _ h2
      exact .some (.cons h1 h2)
    · exact .none
    · exact .none
    · exact .none

theorem opt_null {α : Type} (d : De α) {o o' : Option Json} (h : Dropped o o') : opt d o = opt d o' := by
  rcases h with rfl | ⟨rfl, rfl⟩ <;> rfl

theorem req_null {α : Type} {d : De α} (hd : d .null = none) {o o' : Option Json} (h : Dropped o o') :
    req d o = req d o' := by
  rcases h with rfl | ⟨rfl, rfl⟩
  · rfl
  · exact hd

theorem Spec.NullAdded.filter {kvs kvs' : List (Str × Json)} (h : NullAdded kvs kvs') (f : Str → Bool) :
    NullAdded (kvs.filter fun p => f p.1) (kvs'.filter fun p => f p.1) ∨
      kvs.filter (fun p => f p.1) = kvs'.filter (fun p => f p.1) := by
  obtain ⟨a, b, n, rfl, rfl, hn⟩ := h
  by_cases hf : f n = true
  · refine .inl ⟨a.filter fun p => f p.1, b.filter fun p => f p.1, n, ?_, ?_, ?_⟩
    · rw [List.filter_append]
    · rw [List.filter_append, List.filter_cons_of_pos (by simpa using hf)]
    · intro h
      refine hn ?_
      rw [List.mem_map] at h ⊢
      obtain ⟨p, hp, e⟩ := h
      rw [← List.filter_append] at hp
      exact ⟨p, (List.mem_filter.1 hp).1, e⟩
  · refine .inr ?_
    rw [List.filter_append, List.filter_append, List.filter_cons_of_neg (by simpa using hf)]

theorem null_display : NullIgnored CredentialSubjectDisplay.de := by
  intro kvs kvs' h
  have hs := fields_null h [str! "name", str! "locale"]
  unfold CredentialSubjectDisplay.de
  simp only [struct]
  revert hs
  generalize fields _ kvs' = a, fields _ kvs = b
  rintro (⟨_ | ⟨h1, _ | ⟨h2, _ | ⟨_, _⟩⟩⟩⟩ | _) <;> try rfl
  dsimp only
  rw [opt_null _ h1, opt_null _ h2]

theorem null_subject : NullIgnored CredentialSubject.de := by
  intro kvs kvs' h
  have hs := fields_null h [str! "mandatory", str! "valueType", str! "display"]
  unfold CredentialSubject.de
  simp only [struct]
  revert hs
  generalize fields _ kvs' = a, fields _ kvs = b
  rintro (⟨_ | ⟨h1, _ | ⟨h2, _ | ⟨h3, _ | ⟨_, _⟩⟩⟩⟩⟩ | _) <;> try rfl
  dsimp only
  rw [opt_null _ h1, opt_null _ h2, opt_null _ h3]

theorem tagged_null {kvs kvs' : List (Str × Json)} (h : NullAdded kvs kvs') (tag : Str) :
    (∃ t c c', tagged tag (.obj kvs') = some (t, .obj c') ∧ tagged tag (.obj kvs) = some (t, .obj c) ∧
      (NullAdded c c' ∨ c = c')) ∨
    ((∃ c, tagged tag (.obj kvs') = some (.null, c)) ∨ tagged tag (.obj kvs') = none) ∧
      tagged tag (.obj kvs) = none := by
  have h1 := field_null h tag
  have h2 := h.filter fun n => decide (n ≠ tag)
  simp only [tagged]
  revert h1
  generalize field tag kvs' = a, field tag kvs = b
  rintro (h1 | _)
  · rcases h1 with rfl | ⟨rfl, rfl⟩
    · rename_i a
      cases a with
      | none => exact .inr ⟨.inr rfl, rfl⟩
      | some t => exact .inl ⟨t, _, _, rfl, rfl, h2⟩
    · exact .inr ⟨.inl ⟨_, rfl⟩, rfl⟩
  · exact .inr ⟨.inr rfl, rfl⟩

theorem null_jwt : NullIgnored CredentialFormatProfile.deJwt := by
  intro kvs kvs' h
  have hs := fields_null h [str! "types", str! "credentialSubject", str! "order"]
  unfold CredentialFormatProfile.deJwt
  simp only [struct]
  revert hs
  generalize fields _ kvs' = a, fields _ kvs = b
  rintro (⟨_ | ⟨h1, _ | ⟨h2, _ | ⟨h3, _ | ⟨_, _⟩⟩⟩⟩⟩ | _) <;> try rfl
  dsimp only
  rw [req_null rfl h1, opt_null _ h2, opt_null _ h3]

theorem null_ldp : NullIgnored CredentialFormatProfile.deLdp := by
  intro kvs kvs' h
  have hs := fields_null h [str! "@context", str! "types", str! "credentialSubject", str! "order"]
  unfold CredentialFormatProfile.deLdp
  simp only [struct]
  revert hs
  generalize fields _ kvs' = a, fields _ kvs = b
  rintro (⟨_ | ⟨h1, _ | ⟨h2, _ | ⟨h3, _ | ⟨h4, _ | ⟨_, _⟩⟩⟩⟩⟩⟩ | _) <;> try rfl
  dsimp only
  rw [req_null rfl h1, req_null rfl h2, opt_null _ h3, opt_null _ h4]

theorem null_mdoc : NullIgnored CredentialFormatProfile.deMdoc := by
  intro kvs kvs' h
  have hs := fields_null h [str! "doctype", str! "claims", str! "order"]
  unfold CredentialFormatProfile.deMdoc
  simp only [struct]
  revert hs
  generalize fields _ kvs' = a, fields _ kvs = b
  rintro (⟨_ | ⟨h1, _ | ⟨h2, _ | ⟨h3, _ | ⟨_, _⟩⟩⟩⟩⟩ | _) <;> try rfl
  dsimp only
  rw [req_null rfl h1, opt_null _ h2, opt_null _ h3]

/-- C144. Credentials. -/
theorem C144_credential (buffered : Bool) : NullIgnored (CredentialFormatProfile.de buffered) := by
  intro kvs kvs' h
  unfold CredentialFormatProfile.de
  rcases tagged_null h (str! "format") with ⟨t, c, c', h1, h2, h3⟩ | ⟨⟨c, h1⟩ | h1, h2⟩
  · rw [h1, h2]
    rcases h3 with h3 | rfl
    · simp only [null_jwt _ _ h3, null_ldp _ _ h3, null_mdoc _ _ h3]
    · rfl
  · rw [h1, h2]
    rfl
  · rw [h1, h2]

/-- C144. The authorized code flow. -/
theorem C144_authorized : NullIgnored AuthorizedCodeFlow.de := by
  intro kvs kvs' h
  have hs := fields_null h [str! "issuer_state"]
  unfold AuthorizedCodeFlow.de
  simp only [struct]
  revert hs
  generalize fields _ kvs' = a, fields _ kvs = b
  rintro (⟨_ | ⟨h1, _ | ⟨_, _⟩⟩⟩ | _) <;> try rfl
  dsimp only
  rw [opt_null _ h1]

/-- C144. The pre-authorized code flow. -/
theorem C144_preauthorized : NullIgnored PreAuthorizedCodeFlow.de := by
  intro kvs kvs' h
  have hs := fields_null h [str! "pre-authorized_code", str! "user_pin_required"]
  unfold PreAuthorizedCodeFlow.de
  simp only [struct]
  revert hs
  generalize fields _ kvs' = a, fields _ kvs = b
  rintro (⟨_ | ⟨h1, _ | ⟨h2, _ | ⟨_, _⟩⟩⟩⟩ | _) <;> try rfl
  dsimp only
  rw [req_null rfl h1, opt_null _ h2]

/-- C144. Grants. -/
theorem C144_grants : NullIgnored CredentialOfferGrants.de := by
  intro kvs kvs' h
  have hs := fields_null h [str! "authorization_code", str! "urn:ietf:params:oauth:grant-type:pre-authorized_code"]
  unfold CredentialOfferGrants.de
  simp only [struct]
  revert hs
  generalize fields _ kvs' = a, fields _ kvs = b
  rintro (⟨_ | ⟨h1, _ | ⟨h2, _ | ⟨_, _⟩⟩⟩⟩ | _) <;> try rfl
  dsimp only
  rw [opt_null _ h1, opt_null _ h2]

/-- C144. Offers. -/
theorem C144_offer : NullIgnored CredentialOffer.de := by
  intro kvs kvs' h
  have hs := fields_null h [str! "credential_issuer", str! "credentials", str! "grants"]
  unfold CredentialOffer.de
  simp only [struct]
  revert hs
  generalize fields _ kvs' = a, fields _ kvs = b
  rintro (⟨_ | ⟨h1, _ | ⟨h2, _ | ⟨h3, _ | ⟨_, _⟩⟩⟩⟩⟩ | _) <;> try rfl
  dsimp only
  rw [req_null rfl h1, req_null rfl h2, req_null rfl h3]

/-- C144. Token responses. -/
theorem C144_token_response : NullIgnored AccessTokenSuccessResponse.de := by
  intro kvs kvs' h
  have hs := fields_null h [str! "access_token", str! "token_type", str! "expires_in", str! "scope",
    str! "c_nonce", str! "c_nonce_expires_in", str! "authorization_pending", str! "interval"]
  unfold AccessTokenSuccessResponse.de
  simp only [struct]
  revert hs
  generalize fields _ kvs' = a, fields _ kvs = b
  rintro (⟨_ | ⟨h1, _ | ⟨h2, _ | ⟨h3, _ | ⟨h4, _ | ⟨h5, _ | ⟨h6, _ | ⟨h7, _ | ⟨h8, _ | ⟨_, _⟩⟩⟩⟩⟩⟩⟩⟩⟩⟩ | _) <;> try rfl
  dsimp only
  rw [req_null rfl h1, req_null rfl h2, opt_null _ h3, opt_null _ h4, opt_null _ h5, opt_null _ h6,
    opt_null _ h7, opt_null _ h8]

theorem null_pre : NullIgnored GrantType.dePre := by
  intro kvs kvs' h
  have hs := fields_null h [str! "pre_authorized_code", str! "user_pin"]
  unfold GrantType.dePre
  simp only [struct]
  revert hs
  generalize fields _ kvs' = a, fields _ kvs = b
  rintro (⟨_ | ⟨h1, _ | ⟨h2, _ | ⟨_, _⟩⟩⟩⟩ | _) <;> try rfl
  dsimp only
  rw [req_null rfl h1, opt_null _ h2]

/-- C144. Grants of token requests. -/
theorem C144_grant_type : NullIgnored GrantType.de := by
  intro kvs kvs' h
  unfold GrantType.de
  rcases tagged_null h (str! "grant_type") with ⟨t, c, c', h1, h2, h3⟩ | ⟨⟨c, h1⟩ | h1, h2⟩
  · rw [h1, h2]
    rcases h3 with h3 | rfl
    · simp only [null_pre _ _ h3, GrantType.deUnit]
    · rfl
  · rw [h1, h2]
    rfl
  · rw [h1, h2]

/-- C144. Token requests. -/
theorem C144_token_request : NullIgnored AccessTokenRequest.de := by
  intro kvs kvs' h
  have hs := fields_null h [str! "grant_type"]
  unfold AccessTokenRequest.de
  simp only [struct]
  revert hs
  generalize fields _ kvs' = a, fields _ kvs = b
  rintro (⟨_ | ⟨h1, _ | ⟨_, _⟩⟩⟩ | _) <;> try rfl
  dsimp only
  rw [req_null rfl h1]

/-- C144. Credential requests. -/
theorem C144_request : NullIgnored CredentialRequest.de := by
  intro kvs kvs' h
  have hs := fields_null h [str! "proof"]
  unfold CredentialRequest.de
  simp only [structFlat]
  have hr : CredentialFormatProfile.de true (.obj (kvs'.filter fun p => decide (p.1 ∉ [str! "proof"]))) =
      CredentialFormatProfile.de true (.obj (kvs.filter fun p => decide (p.1 ∉ [str! "proof"]))) := by
    rcases h.filter fun n => decide (n ∉ [str! "proof"]) with h | h
    · exact C144_credential true _ _ h
    · rw [h]
  revert hs
  generalize fields _ kvs' = a, fields _ kvs = b
  rintro (⟨_ | ⟨h1, _ | ⟨_, _⟩⟩⟩ | _) <;> try rfl
  simp only [Option.map_some]
  rw [opt_null _ h1, hr]

/-- C144. Credential responses. -/
theorem C144_response : NullIgnored CredentialSuccessResponse.de := by
  intro kvs kvs' h
  have hs := fields_null h [str! "format", str! "credential", str! "acceptance_token", str! "c_nonce",
    str! "c_nonce_expires_in"]
  unfold CredentialSuccessResponse.de
  simp only [struct]
  revert hs
  generalize fields _ kvs' = a, fields _ kvs = b
  rintro (⟨_ | ⟨h1, _ | ⟨h2, _ | ⟨h3, _ | ⟨h4, _ | ⟨h5, _ | ⟨_, _⟩⟩⟩⟩⟩⟩⟩ | _) <;> try rfl
  dsimp only
  rw [req_null rfl h1, opt_null _ h2, opt_null _ h3, opt_null _ h4, opt_null _ h5]

/-- C144. Logos. -/
theorem C144_logo : NullIgnored DisplayLogo.de := by
  intro kvs kvs' h
  have hs := fields_null h [str! "url", str! "alt_text"]
  unfold DisplayLogo.de
  simp only [struct]
  revert hs
  generalize fields _ kvs' = a, fields _ kvs = b
  rintro (⟨_ | ⟨h1, _ | ⟨h2, _ | ⟨_, _⟩⟩⟩⟩ | _) <;> try rfl
  dsimp only
  rw [opt_null _ h1, opt_null _ h2]

/-- C144. Display properties. -/
theorem C144_display : NullIgnored DisplayProperties.de := by
  intro kvs kvs' h
  have hs := fields_null h [str! "name", str! "locale", str! "logo", str! "description",
    str! "background_color", str! "text_color"]
  unfold DisplayProperties.de
  simp only [struct]
  revert hs
  generalize fields _ kvs' = a, fields _ kvs = b
  rintro (⟨_ | ⟨h1, _ | ⟨h2, _ | ⟨h3, _ | ⟨h4, _ | ⟨h5, _ | ⟨h6, _ | ⟨_, _⟩⟩⟩⟩⟩⟩⟩⟩ | _) <;> try rfl
  dsimp only
  rw [req_null rfl h1, opt_null _ h2, opt_null _ h3, opt_null _ h4, opt_null _ h5, opt_null _ h6]

/-- C144. Supported credentials. -/
theorem C144_supported : NullIgnored CredentialSupported.de := by
  intro kvs kvs' h
  have hs := fields_null h [str! "id", str! "cryptographic_binding_mehtods_supported",
    str! "cryptographic_suites_supported", str! "display"]
  unfold CredentialSupported.de
  simp only [structFlat]
  have hr : CredentialFormatProfile.de true (.obj (kvs'.filter fun p => decide (p.1 ∉ [str! "id", str! "cryptographic_binding_mehtods_supported", str! "cryptographic_suites_supported", str! "display"]))) =
      CredentialFormatProfile.de true (.obj (kvs.filter fun p => decide (p.1 ∉ [str! "id", str! "cryptographic_binding_mehtods_supported", str! "cryptographic_suites_supported", str! "display"]))) := by
    rcases h.filter fun n => decide (n ∉ [str! "id", str! "cryptographic_binding_mehtods_supported", str! "cryptographic_suites_supported", str! "display"]) with h | h
    · exact C144_credential true _ _ h
    · rw [h]
  revert hs
  generalize fields _ kvs' = a, fields _ kvs = b
  rintro (⟨_ | ⟨h1, _ | ⟨h2, _ | ⟨h3, _ | ⟨h4, _ | ⟨_, _⟩⟩⟩⟩⟩⟩ | _) <;> try rfl
  simp only [Option.map_some]
  rw [opt_null _ h1, opt_null _ h2, opt_null _ h3, opt_null _ h4, hr]

/-- C144. Bodies of proofs. -/
theorem C144_body (x : Ext) : NullIgnored (ProofJwtBody.de x) := by
  intro kvs kvs' h
  have hs := fields_null h [str! "iss", str! "aud", str! "sub", str! "iat", str! "nonce", str! "nbf", str! "exp"]
  unfold ProofJwtBody.de
  simp only [struct]
  revert hs
  generalize fields _ kvs' = a, fields _ kvs = b
  rintro (⟨_ | ⟨h1, _ | ⟨h2, _ | ⟨h3, _ | ⟨h4, _ | ⟨h5, _ | ⟨h6, _ | ⟨h7, _ | ⟨_, _⟩⟩⟩⟩⟩⟩⟩⟩⟩ | _) <;> try rfl
  dsimp only
  rw [opt_null _ h1, req_null rfl h2, opt_null _ h3, req_null rfl h4, req_null rfl h5, opt_null _ h6, opt_null _ h7]

/-- C144. Stored nonces. -/
theorem C144_nonce_options (x : Ext) : NullIgnored (CNonceOptions.de x) := by
  intro kvs kvs' h
  have hs := fields_null h [str! "c_nonce_expires_in", str! "expected_c_nonce", str! "c_nonce_created_at"]
  unfold CNonceOptions.de
  simp only [struct]
  revert hs
  generalize fields _ kvs' = a, fields _ kvs = b
  rintro (⟨_ | ⟨h1, _ | ⟨h2, _ | ⟨h3, _ | ⟨_, _⟩⟩⟩⟩⟩ | _) <;> try rfl
  dsimp only
  rw [req_null rfl h1, req_null rfl h2, req_null rfl h3]

/-- C144. Options of the credential request. -/
theorem C144_request_options (x : Ext) : NullIgnored (EvaluateCredentialRequestOptions.de x) := by
  intro kvs kvs' h
  have hs := fields_null h [str! "c_nonce", str! "client_id"]
  unfold EvaluateCredentialRequestOptions.de
  simp only [struct]
  revert hs
  generalize fields _ kvs' = a, fields _ kvs = b
  rintro (⟨_ | ⟨h1, _ | ⟨h2, _ | ⟨_, _⟩⟩⟩⟩ | _) <;> try rfl
  dsimp only
  rw [opt_null _ h1, opt_null _ h2]

/-- C144. Nonces. -/
theorem C144_nonce : NullIgnored CNonce.de := by
  intro kvs kvs' h
  have hs := fields_null h [str! "c_nonce", str! "c_nonce_expires_in"]
  unfold CNonce.de
  simp only [struct]
  revert hs
  generalize fields _ kvs' = a, fields _ kvs = b
  rintro (⟨_ | ⟨h1, _ | ⟨h2, _ | ⟨_, _⟩⟩⟩⟩ | _) <;> try rfl
  dsimp only
  rw [req_null rfl h1, opt_null _ h2]

/-- C144. Options of the token request. -/
theorem C144_token_options : NullIgnored EvaluateAccessTokenRequestOptions.de := by
  intro kvs kvs' h
  have hs := fields_null h [str! "expected_user_pin"]
  unfold EvaluateAccessTokenRequestOptions.de
  simp only [struct]
  revert hs
  generalize fields _ kvs' = a, fields _ kvs = b
  rintro (⟨_ | ⟨h1, _ | ⟨_, _⟩⟩⟩ | _) <;> try rfl
  dsimp only
  rw [opt_null _ h1]

/-- C144. Proofs as documents. -/
theorem C144_jwt (x : Ext) : NullIgnored (ProofJwt.de x) := by
  intro kvs kvs' h
  have hs := fields_null h [str! "header", str! "body", str! "signature"]
  unfold ProofJwt.de
  simp only [struct]
  revert hs
  generalize fields _ kvs' = a, fields _ kvs = b
  rintro (⟨_ | ⟨h1, _ | ⟨h2, _ | ⟨h3, _ | ⟨_, _⟩⟩⟩⟩⟩ | _) <;> try rfl
  dsimp only
  rw [req_null rfl h1, req_null rfl h2, opt_null _ h3]

/-! ### The three others -/

theorem field_other {a b : List (Str × Json)} {n k : Str} (h : n ≠ k) :
    field k (a ++ (n, .null) :: b) = field k (a ++ b) := by
  have h1 : occurrences k ((n, Json.null) :: b) = occurrences k b := by simp [occurrences, h]
  unfold field
  rw [occurrences_append, occurrences_append, h1]

/-- Proofs in requests, but for `proof_type`. **Missing:** that one (`C144_refuted_proof`). -/
theorem C144_proof_partial {a b : List (Str × Json)} {n : Str} (hn : n ∉ (a ++ b).map Prod.fst)
    (hp : n ≠ str! "proof_type") :
    CredentialRequestProof.de (.obj (a ++ (n, .null) :: b)) = CredentialRequestProof.de (.obj (a ++ b)) := by
  have h2 := field_null ⟨a, b, n, rfl, rfl, hn⟩ (str! "jwt")
  unfold CredentialRequestProof.de
  simp only [struct, fields, field_other hp]
  cases field (str! "proof_type") (a ++ b) with
  | none => rfl
  | some pt =>
    revert h2
    generalize field (str! "jwt") (a ++ (n, .null) :: b) = c, field (str! "jwt") (a ++ b) = d
    rintro (h2 | _)
    · dsimp only
      rw [req_null rfl h2]
    · rfl

theorem filter_out {a b : List (Str × Json)} {n : Str} {f : Str → Bool} (hn : f n = false) :
    (a ++ (n, Json.null) :: b).filter (fun p => f p.1) = (a ++ b).filter fun p => f p.1 := by
  rw [List.filter_append, List.filter_append, List.filter_cons_of_neg (by simp [hn])]

/-- Headers, but for `kid`, `jwk` and `x5c`. **Missing:** these (`C144_refuted_header`). -/
theorem C144_header_partial {a b : List (Str × Json)} {n : Str} (hn : n ∉ (a ++ b).map Prod.fst)
    (hk : n ∉ keyNames) :
    ProofJwtHeader.de (.obj (a ++ (n, .null) :: b)) = ProofJwtHeader.de (.obj (a ++ b)) := by
  have hs := fields_null ⟨a, b, n, rfl, rfl, hn⟩ [str! "typ", str! "alg"]
  have hd : ProofJwtAdditionalHeader.deFlat
      ((a ++ (n, .null) :: b).filter fun p => decide (p.1 ∉ [str! "typ", str! "alg"])) =
      ProofJwtAdditionalHeader.deFlat ((a ++ b).filter fun p => decide (p.1 ∉ [str! "typ", str! "alg"])) := by
    rw [deFlat_keyNames, deFlat_keyNames (List.filter _ (a ++ b)), List.filter_filter, List.filter_filter]
    congr 1
    exact filter_out (f := fun m => decide (m ∈ keyNames) && decide (m ∉ [str! "typ", str! "alg"])) (by simp [hk])
  unfold ProofJwtHeader.de
  simp only [structFlat]
  revert hs
  generalize fields _ (a ++ (n, .null) :: b) = c, fields _ (a ++ b) = d
  rintro (⟨_ | ⟨h1, _ | ⟨h2, _ | ⟨_, _⟩⟩⟩⟩ | _) <;> try rfl
  simp only [Option.map_some]
  rw [req_null rfl h1, req_null rfl h2, hd]

/-- The members of issuer metadata with a meaning of their own. -/
def ownMetadataNames : List Str :=
  [str! "credential_issuer", str! "authorization_server", str! "credential_endpoint",
    str! "batch_credential_endpoint", str! "credentials_supported"]

/-- Issuer metadata, for the members with a meaning of their own. **Missing:** the others, which are kept
(`C144_refuted_metadata`). -/
theorem C144_metadata_partial {a b : List (Str × Json)} {n : Str} (hn : n ∉ (a ++ b).map Prod.fst)
    (hk : n ∈ ownMetadataNames) :
    CredentialIssuerMetadata.de (.obj (a ++ (n, .null) :: b)) = CredentialIssuerMetadata.de (.obj (a ++ b)) := by
  have hs := fields_null ⟨a, b, n, rfl, rfl, hn⟩ ownMetadataNames
  have hd := filter_out (a := a) (b := b) (n := n) (f := fun m => decide (m ∉ ownMetadataNames)) (by simp [hk])
  unfold CredentialIssuerMetadata.de
  unfold ownMetadataNames at hs hd
  simp only [structFlat]
  rw [hd]
  revert hs
  generalize fields _ (a ++ (n, .null) :: b) = c, fields _ (a ++ b) = d
  rintro (⟨_ | ⟨h1, _ | ⟨h2, _ | ⟨h3, _ | ⟨h4, _ | ⟨h5, _ | ⟨_, _⟩⟩⟩⟩⟩⟩⟩ | _) <;> try rfl
  simp only [Option.map_some]
  rw [req_null rfl h1, opt_null _ h2, req_null rfl h3, opt_null _ h4, req_null rfl h5]

/-- **Claim C144**, in full: for these three as well. -/
def C144_statement : Prop :=
  NullIgnored CredentialRequestProof.de ∧ NullIgnored ProofJwtHeader.de ∧ NullIgnored CredentialIssuerMetadata.de

/-- `proof_type` may be left out, but not be `null`. -/
theorem C144_proof_type (s : Str) :
    CredentialRequestProof.de (.obj [(str! "jwt", .str s)]) = some ⟨str! "JWT", s⟩ ∧
    CredentialRequestProof.de (.obj [(str! "proof_type", .null), (str! "jwt", .str s)]) = none :=
  ⟨rfl, rfl⟩

/-- A `kid` that is `null` hides the `jwk` behind it. -/
theorem C144_hides (typ w : Str) :
    ProofJwtHeader.de (.obj [(str! "typ", .str typ), (str! "alg", .str (str! "ES256")), (str! "jwk", .str w)]) =
      some ⟨typ, .ES256, some (.jwk w)⟩ ∧
    ProofJwtHeader.de (.obj [(str! "typ", .str typ), (str! "alg", .str (str! "ES256")), (str! "kid", .null),
      (str! "jwk", .str w)]) = some ⟨typ, .ES256, none⟩ :=
  ⟨rfl, rfl⟩

/-- **The code violates C144**, for the proof in a request, … -/
theorem C144_refuted_proof : ¬ NullIgnored CredentialRequestProof.de := by
  intro h
  have h1 := h [(str! "jwt", .str [])] [(str! "proof_type", .null), (str! "jwt", .str [])]
    ⟨[], _, _, rfl, rfl, by decide⟩
  rw [(C144_proof_type []).1, (C144_proof_type []).2] at h1
  cases h1

/-- … for headers … -/
theorem C144_refuted_header : ¬ NullIgnored ProofJwtHeader.de := by
  intro h
  have h1 := h [(str! "typ", .str []), (str! "alg", .str (str! "ES256")), (str! "jwk", .str [])]
    [(str! "typ", .str []), (str! "alg", .str (str! "ES256")), (str! "kid", .null), (str! "jwk", .str [])]
    ⟨[(str! "typ", .str []), (str! "alg", .str (str! "ES256"))], [(str! "jwk", .str [])], str! "kid", rfl, rfl,
      by decide⟩
  rw [(C144_hides [] []).1, (C144_hides [] []).2] at h1
  cases h1

/-- … and for issuer metadata. -/
theorem C144_refuted_metadata : ¬ NullIgnored CredentialIssuerMetadata.de := by
  intro h
  have h1 := h [(str! "credential_issuer", .str []), (str! "credential_endpoint", .str []),
      (str! "credentials_supported", .arr [])]
    [(str! "credential_issuer", .str []), (str! "credential_endpoint", .str []),
      (str! "credentials_supported", .arr []), (str! "x", .null)]
    ⟨[(str! "credential_issuer", .str []), (str! "credential_endpoint", .str []),
      (str! "credentials_supported", .arr [])], [], str! "x", rfl, rfl, by decide⟩
  exact absurd h1 (by decide +kernel)

/-- **The code violates C144.** -/
theorem C144_refuted : ¬ C144_statement := fun h => C144_refuted_header h.2.1

/-! ### Cases -/

namespace Ex

/-- An offer's grants with and without an authorization code that is `null`. -/
example : CredentialOfferGrants.de (.obj [(str! "authorization_code", .null),
      (str! "urn:ietf:params:oauth:grant-type:pre-authorized_code", .obj [(str! "pre-authorized_code", .str (str! "c")),
        (str! "user_pin_required", .null)])]) = some ⟨none, some ⟨str! "c", none⟩⟩ := by decide +kernel

example : NullAdded [(str! "pre-authorized_code", Json.str (str! "c"))]
    [(str! "pre-authorized_code", .str (str! "c")), (str! "user_pin_required", .null)] :=
  ⟨[(str! "pre-authorized_code", .str (str! "c"))], [], str! "user_pin_required", rfl, rfl, by decide⟩

/-- A second member of the name is not left out: the object is rejected. -/
example : PreAuthorizedCodeFlow.de (.obj [(str! "pre-authorized_code", .str (str! "c")),
    (str! "pre-authorized_code", .null)]) = none := by decide +kernel

end Ex

end Oid4vci
