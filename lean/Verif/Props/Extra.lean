import Verif.Spec.Extra
import Verif.Props.Null

/-!
C146. Members a type does not know are ignored, at any depth.

Two types do otherwise: issuer metadata keeps them (`C146_refuted_metadata`), and the object around the credential in a
response must have no second member (`C146_refuted_response`).
-/

namespace Oid4vci

open Serde Spec

/-- The fields of a struct, each alike in its own way. -/
inductive Fields : List Likeness → List (Option Json) → List (Option Json) → Prop
  | nil : Fields [] [] []
  | cons {R : Likeness} {Rs : List Likeness} {o o' : Option Json} {os os' : List (Option Json)} : Option.Rel R o o' →
      Fields Rs os os' → Fields (R :: Rs) (o :: os) (o' :: os')

theorem occurrences_known {fs : List (Str × Likeness)} {k : Str} (hk : (about k fs).isSome) (kvs : List (Str × Json)) :
    occurrences k kvs = occurrences k (kvs.filter fun m => (about m.1 fs).isSome) := by
  unfold occurrences
  rw [List.filter_filter]
  congr 1
  refine List.filter_congr ?_
  rintro ⟨n, v⟩ -
  by_cases h : n = k
  · subst h; simp [hk]
  · simp [h]

theorem occurrences_alike {fs : List (Str × Likeness)} {k : Str} {R : Likeness} (hk : about k fs = some R)
    {l l' : List (Str × Json)} (h : List.Forall₂ (fun m m' => m.1 = m'.1 ∧ ∃ R, about m.1 fs = some R ∧ R m.2 m'.2) l l') :
    List.Forall₂ R (occurrences k l) (occurrences k l') := by
  induction h with
  | nil => exact .nil
  | @cons m m' l l' hm _ ih =>
    obtain ⟨n, v⟩ := m
    obtain ⟨n', v'⟩ := m'
    obtain ⟨rfl, S, hS, hv⟩ := hm
    unfold occurrences at ih ⊢
    dsimp only at hS hv
    by_cases hn : n = k
    · subst hn
      rw [hk] at hS
      cases hS
      simp only [List.filter_cons, decide_true, if_true, List.map_cons]
      exact .cons hv ih
    · simpa [List.filter_cons, hn] using ih

theorem field_known {fs : List (Str × Likeness)} {kvs kvs' : List (Str × Json)} (h : KnownMembers fs kvs kvs') {k : Str}
    {R : Likeness} (hk : about k fs = some R) : Option.Rel (Option.Rel R) (field k kvs) (field k kvs') := by
  have h1 := occurrences_alike hk h
  have hi : (about k fs).isSome := by rw [hk]; rfl
  rw [← occurrences_known hi, ← occurrences_known hi] at h1
  unfold field
  revert h1
  generalize occurrences k kvs = a, occurrences k kvs' = b
  rintro (_ | ⟨h, _ | ⟨_, _⟩⟩)
  · exact .some .none
  · exact .some (.some h)
  · exact .none

theorem fields_known {fs : List (Str × Likeness)} {kvs kvs' : List (Str × Json)} (h : KnownMembers fs kvs kvs')
    {ks : List Str} {Rs : List Likeness} (hk : ks.map (fun k => about k fs) = Rs.map some) :
    Option.Rel (Fields Rs) (fields ks kvs) (fields ks kvs') := by
  induction ks generalizing Rs with
  | nil =>
    cases Rs with
    | nil => exact .some .nil
    | cons => cases hk
  | cons k ks ih =>
    cases Rs with
    | nil => cases hk
    | cons R Rs =>
      rw [List.map_cons, List.map_cons, List.cons.injEq] at hk
      have h1 := field_known h hk.1
      have ih := ih hk.2
      simp only [fields]
      revert h1 ih
      generalize field k kvs = a, field k kvs' = b, fields ks kvs = c, fields ks kvs' = d
      intro h1 ih
      cases h1 <;> cases ih
      · rename_i h1 _ _ h2
        exact .some (.cons h1 h2)
      · exact .none
      · exact .none
      · exact .none

/-- What is alike is read alike. -/
def ReadAlike {α : Type} (R : Likeness) (d : De α) : Prop := ∀ j j', R j j' → d j = d j'

theorem ignores_eq {α : Type} (d : De α) : ReadAlike Eq d := by rintro j _ rfl; rfl

theorem req_known {α : Type} {R : Likeness} {d : De α} (hd : ReadAlike R d) {o o' : Option Json} (h : Option.Rel R o o') :
    req d o = req d o' := by
  cases h with
  | some h => exact hd _ _ h
  | none => rfl

/-- Only what is `null` is like `null`. -/
def KeepsNull (R : Likeness) : Prop := ∀ j j', R j j' → (j = .null ↔ j' = .null)

theorem keeps_eq : KeepsNull Eq := by rintro j _ rfl; exact Iff.rfl

theorem keeps_known (fs : List (Str × Likeness)) : KeepsNull (KnownObject fs) := by
  rintro j j' (_ | _)
  · exact Iff.rfl
  · exact ⟨nofun, nofun⟩

theorem keeps_each (R : Likeness) : KeepsNull (Each R) := by
  rintro j j' (_ | _)
  · exact Iff.rfl
  · exact ⟨nofun, nofun⟩

theorem keeps_entries (R : Likeness) : KeepsNull (EachEntry R) := by
  rintro j j' (_ | _)
  · exact Iff.rfl
  · exact ⟨nofun, nofun⟩

theorem opt_known {α : Type} {R : Likeness} {d : De α} (hn : KeepsNull R) (hd : ReadAlike R d) {o o' : Option Json}
    (h : Option.Rel R o o') : opt d o = opt d o' := by
  cases h with
  | none => rfl
  | @some j j' h =>
    have h1 := hd _ _ h
    have h2 := hn _ _ h
    simp only [opt]
    by_cases e : j = .null
    · rw [e, h2.1 e]
    · have e' : j' ≠ .null := fun h => e (h2.2 h)
      have : ∀ {v : Json}, v ≠ .null → option d v = (d v).map some := by
        intro v hv
        cases v <;> first | rfl | exact absurd rfl hv
      rw [this e, this e', h1]

theorem all_known {α : Type} {R : Likeness} {d : De α} (hd : ReadAlike R d) {xs xs' : List Json}
    (h : List.Forall₂ R xs xs') : all d xs = all d xs' := by
  induction h with
  | nil => rfl
  | cons h _ ih => simp only [all, hd _ _ h, ih]

theorem vec_known {α : Type} {R : Likeness} {d : De α} (hd : ReadAlike R d) : ReadAlike (Each R) (vec d) := by
  rintro j j' (_ | ⟨_, _, h⟩)
  · rfl
  · exact all_known hd h

theorem hmap_known {α : Type} {R : Likeness} {d : De α} (hd : ReadAlike R d) : ReadAlike (EachEntry R) (hmap d) := by
  rintro j j' (_ | ⟨_, _, h⟩)
  · rfl
  · show entries d [] _ = entries d [] _
    generalize ([] : HMap α) = acc
    induction h generalizing acc with
    | nil => rfl
    | @cons m m' l l' hm _ ih =>
      obtain ⟨n, v⟩ := m
      obtain ⟨n', v'⟩ := m'
      obtain ⟨rfl, hv⟩ := hm
      simp only [entries, hd _ _ hv]
      cases d v' with
      | none => rfl
      | some a => exact ih _

theorem Spec.KnownMembers.filter {fs fs' : List (Str × Likeness)} {kvs kvs' : List (Str × Json)} (h : KnownMembers fs kvs kvs')
    {f : Str → Bool} (hf : ∀ k, f k = true → about k fs' = about k fs) :
    KnownMembers fs' (kvs.filter fun m => f m.1) (kvs'.filter fun m => f m.1) := by
  have key : ∀ l : List (Str × Json), ((l.filter fun m => f m.1).filter fun m => (about m.1 fs').isSome) =
      (l.filter fun m => (about m.1 fs).isSome).filter fun m => f m.1 := by
    intro l
    rw [List.filter_filter, List.filter_filter]
    refine List.filter_congr ?_
    rintro ⟨n, v⟩ -
    dsimp only
    cases hn : f n with
    | false => simp
    | true => rw [hf n hn]; simp
  unfold KnownMembers at h ⊢
  rw [key, key]
  revert h
  generalize List.filter (fun m => (about m.1 fs).isSome) kvs = a, List.filter (fun m => (about m.1 fs).isSome) kvs' = b
  intro h
  induction h with
  | nil => exact .nil
  | @cons m m' l l' hm _ ih =>
    obtain ⟨n, v⟩ := m
    obtain ⟨n', v'⟩ := m'
    obtain ⟨rfl, S, hS, hv⟩ := hm
    cases hn : f n with
    | false => simpa [List.filter_cons, hn] using ih
    | true =>
      simp only [List.filter_cons, hn, if_true]
      exact .cons ⟨rfl, S, (hf n hn).trans hS, hv⟩ ih

theorem tagged_known {fs : List (Str × Likeness)} {kvs kvs' : List (Str × Json)} (h : KnownMembers fs kvs kvs') {tag : Str}
    (ht : about tag fs = some Eq) :
    (∃ t c c', tagged tag (.obj kvs) = some (t, .obj c) ∧ tagged tag (.obj kvs') = some (t, .obj c') ∧
      KnownMembers fs c c') ∨ (tagged tag (.obj kvs) = none ∧ tagged tag (.obj kvs') = none) := by
  have h1 := field_known h ht
  have h2 := h.filter (fs' := fs) (f := fun n => decide (n ≠ tag)) fun _ _ => rfl
  simp only [tagged]
  revert h1
  generalize field tag kvs = a, field tag kvs' = b
  rintro (⟨⟨e⟩ | _⟩ | _)
  · cases e
    exact .inl ⟨_, _, _, rfl, rfl, h2⟩
  · exact .inr ⟨rfl, rfl⟩
  · exact .inr ⟨rfl, rfl⟩

theorem alike_claimDisplay : ReadAlike claimDisplayAlike CredentialSubjectDisplay.de := by
  rintro j j' (_ | ⟨kvs, kvs', h⟩)
  · rfl
  have hs := fields_known h (ks := [str! "name", str! "locale"])
    (Rs := [Eq, Eq]) rfl
  unfold CredentialSubjectDisplay.de
  simp only [struct]
  revert hs
  generalize fields _ kvs = a, fields _ kvs' = b
  rintro (⟨hs⟩ | _)
  · obtain _ | ⟨h1, hs⟩ := hs
    obtain _ | ⟨h2, hs⟩ := hs
    cases hs
    dsimp only
    rw [opt_known keeps_eq (ignores_eq _) h1, opt_known keeps_eq (ignores_eq _) h2]
  · rfl

theorem alike_claim : ReadAlike claimAlike CredentialSubject.de := by
  rintro j j' (_ | ⟨kvs, kvs', h⟩)
  · rfl
  have hs := fields_known h (ks := [str! "mandatory", str! "valueType", str! "display"])
    (Rs := [Eq, Eq, Each claimDisplayAlike]) rfl
  unfold CredentialSubject.de
  simp only [struct]
  revert hs
  generalize fields _ kvs = a, fields _ kvs' = b
  rintro (⟨hs⟩ | _)
  · obtain _ | ⟨h1, hs⟩ := hs
    obtain _ | ⟨h2, hs⟩ := hs
    obtain _ | ⟨h3, hs⟩ := hs
    cases hs
    dsimp only
    rw [opt_known keeps_eq (ignores_eq _) h1, opt_known keeps_eq (ignores_eq _) h2,
      opt_known (keeps_each _) (vec_known alike_claimDisplay) h3]
  · rfl

theorem alike_jwt {kvs kvs' : List (Str × Json)} (h : KnownMembers credentialTable kvs kvs') :
    CredentialFormatProfile.deJwt (.obj kvs) = CredentialFormatProfile.deJwt (.obj kvs') := by
  have hs := fields_known h (ks := [str! "types", str! "credentialSubject", str! "order"])
    (Rs := [Eq, EachEntry claimAlike, Eq]) rfl
  unfold CredentialFormatProfile.deJwt
  simp only [struct]
  revert hs
  generalize fields _ kvs = a, fields _ kvs' = b
  rintro (⟨hs⟩ | _)
  · obtain _ | ⟨h1, hs⟩ := hs
    obtain _ | ⟨h2, hs⟩ := hs
    obtain _ | ⟨h3, hs⟩ := hs
    cases hs
    dsimp only
    rw [req_known (ignores_eq _) h1, opt_known (keeps_entries _) (hmap_known alike_claim) h2,
      opt_known keeps_eq (ignores_eq _) h3]
  · rfl

theorem alike_ldp {kvs kvs' : List (Str × Json)} (h : KnownMembers credentialTable kvs kvs') :
    CredentialFormatProfile.deLdp (.obj kvs) = CredentialFormatProfile.deLdp (.obj kvs') := by
  have hs := fields_known h (ks := [str! "@context", str! "types", str! "credentialSubject", str! "order"])
    (Rs := [Eq, Eq, EachEntry claimAlike, Eq]) rfl
  unfold CredentialFormatProfile.deLdp
  simp only [struct]
  revert hs
  generalize fields _ kvs = a, fields _ kvs' = b
  rintro (⟨hs⟩ | _)
  · obtain _ | ⟨h1, hs⟩ := hs
    obtain _ | ⟨h2, hs⟩ := hs
    obtain _ | ⟨h3, hs⟩ := hs
    obtain _ | ⟨h4, hs⟩ := hs
    cases hs
    dsimp only
    rw [req_known (ignores_eq _) h1, req_known (ignores_eq _) h2,
      opt_known (keeps_entries _) (hmap_known alike_claim) h3, opt_known keeps_eq (ignores_eq _) h4]
  · rfl

theorem alike_mdoc {kvs kvs' : List (Str × Json)} (h : KnownMembers credentialTable kvs kvs') :
    CredentialFormatProfile.deMdoc (.obj kvs) = CredentialFormatProfile.deMdoc (.obj kvs') := by
  have hs := fields_known h (ks := [str! "doctype", str! "claims", str! "order"])
    (Rs := [Eq, EachEntry claimAlike, Eq]) rfl
  unfold CredentialFormatProfile.deMdoc
  simp only [struct]
  revert hs
  generalize fields _ kvs = a, fields _ kvs' = b
  rintro (⟨hs⟩ | _)
  · obtain _ | ⟨h1, hs⟩ := hs
    obtain _ | ⟨h2, hs⟩ := hs
    obtain _ | ⟨h3, hs⟩ := hs
    cases hs
    dsimp only
    rw [req_known (ignores_eq _) h1, opt_known (keeps_entries _) (hmap_known alike_claim) h2,
      opt_known keeps_eq (ignores_eq _) h3]
  · rfl

theorem alike_credential_members (buffered : Bool) {kvs kvs' : List (Str × Json)} (h : KnownMembers credentialTable kvs kvs') :
    CredentialFormatProfile.de buffered (.obj kvs) = CredentialFormatProfile.de buffered (.obj kvs') := by
  unfold CredentialFormatProfile.de
  rcases tagged_known h (tag := str! "format") rfl with ⟨t, c, c', h1, h2, h3⟩ | ⟨h1, h2⟩
  · rw [h1, h2]
    simp only [alike_jwt h3, alike_ldp h3, alike_mdoc h3]
  · rw [h1, h2]

/-- C146. Credentials. -/
theorem C146_credential (buffered : Bool) : ReadAlike credentialAlike (CredentialFormatProfile.de buffered) := by
  rintro j j' (_ | ⟨kvs, kvs', h⟩)
  · rfl
  · exact alike_credential_members buffered h

theorem alike_string {fs : List (Str × Likeness)} : ReadAlike (KnownObject fs) Serde.string := by
  rintro j j' (_ | _) <;> rfl

theorem alike_entry : ReadAlike credentialAlike CredentialOrId.de := by
  intro j j' h
  unfold CredentialOrId.de
  rw [alike_string _ _ h, C146_credential true _ _ h]

theorem alike_authorized : ReadAlike authorizedAlike AuthorizedCodeFlow.de := by
  rintro j j' (_ | ⟨kvs, kvs', h⟩)
  · rfl
  have hs := fields_known h (ks := [str! "issuer_state"])
    (Rs := [Eq]) rfl
  unfold AuthorizedCodeFlow.de
  simp only [struct]
  revert hs
  generalize fields _ kvs = a, fields _ kvs' = b
  rintro (⟨hs⟩ | _)
  · obtain _ | ⟨h1, hs⟩ := hs
    cases hs
    dsimp only
    rw [opt_known keeps_eq (ignores_eq _) h1]
  · rfl

theorem alike_preAuthorized : ReadAlike preAuthorizedAlike PreAuthorizedCodeFlow.de := by
  rintro j j' (_ | ⟨kvs, kvs', h⟩)
  · rfl
  have hs := fields_known h (ks := [str! "pre-authorized_code", str! "user_pin_required"])
    (Rs := [Eq, Eq]) rfl
  unfold PreAuthorizedCodeFlow.de
  simp only [struct]
  revert hs
  generalize fields _ kvs = a, fields _ kvs' = b
  rintro (⟨hs⟩ | _)
  · obtain _ | ⟨h1, hs⟩ := hs
    obtain _ | ⟨h2, hs⟩ := hs
    cases hs
    dsimp only
    rw [req_known (ignores_eq _) h1, opt_known keeps_eq (ignores_eq _) h2]
  · rfl

theorem alike_grants : ReadAlike grantsAlike CredentialOfferGrants.de := by
  rintro j j' (_ | ⟨kvs, kvs', h⟩)
  · rfl
  have hs := fields_known h (ks := [str! "authorization_code", str! "urn:ietf:params:oauth:grant-type:pre-authorized_code"])
    (Rs := [authorizedAlike, preAuthorizedAlike]) rfl
  unfold CredentialOfferGrants.de
  simp only [struct]
  revert hs
  generalize fields _ kvs = a, fields _ kvs' = b
  rintro (⟨hs⟩ | _)
  · obtain _ | ⟨h1, hs⟩ := hs
    obtain _ | ⟨h2, hs⟩ := hs
    cases hs
    dsimp only
    rw [opt_known (keeps_known _) alike_authorized h1, opt_known (keeps_known _) alike_preAuthorized h2]
  · rfl

/-- C146. Offers, with the credentials and grants in them. -/
theorem C146_offer : ReadAlike offerAlike CredentialOffer.de := by
  rintro j j' (_ | ⟨kvs, kvs', h⟩)
  · rfl
  have hs := fields_known h (ks := [str! "credential_issuer", str! "credentials", str! "grants"])
    (Rs := [Eq, Each credentialAlike, grantsAlike]) rfl
  unfold CredentialOffer.de
  simp only [struct]
  revert hs
  generalize fields _ kvs = a, fields _ kvs' = b
  rintro (⟨hs⟩ | _)
  · obtain _ | ⟨h1, hs⟩ := hs
    obtain _ | ⟨h2, hs⟩ := hs
    obtain _ | ⟨h3, hs⟩ := hs
    cases hs
    dsimp only
    rw [req_known (ignores_eq _) h1, req_known (vec_known alike_entry) h2, req_known alike_grants h3]
  · rfl

/-- C146. Token responses. -/
theorem C146_token_response : ReadAlike tokenResponseAlike AccessTokenSuccessResponse.de := by
  rintro j j' (_ | ⟨kvs, kvs', h⟩)
  · rfl
  have hs := fields_known h (ks := [str! "access_token", str! "token_type", str! "expires_in", str! "scope", str! "c_nonce",
    str! "c_nonce_expires_in", str! "authorization_pending", str! "interval"])
    (Rs := [Eq, Eq, Eq, Eq, Eq, Eq, Eq, Eq]) rfl
  unfold AccessTokenSuccessResponse.de
  simp only [struct]
  revert hs
  generalize fields _ kvs = a, fields _ kvs' = b
  rintro (⟨hs⟩ | _)
  · obtain _ | ⟨h1, hs⟩ := hs
    obtain _ | ⟨h2, hs⟩ := hs
    obtain _ | ⟨h3, hs⟩ := hs
    obtain _ | ⟨h4, hs⟩ := hs
    obtain _ | ⟨h5, hs⟩ := hs
    obtain _ | ⟨h6, hs⟩ := hs
    obtain _ | ⟨h7, hs⟩ := hs
    obtain _ | ⟨h8, hs⟩ := hs
    cases hs
    dsimp only
    rw [req_known (ignores_eq _) h1, req_known (ignores_eq _) h2, opt_known keeps_eq (ignores_eq _) h3,
      opt_known keeps_eq (ignores_eq _) h4, opt_known keeps_eq (ignores_eq _) h5,
      opt_known keeps_eq (ignores_eq _) h6, opt_known keeps_eq (ignores_eq _) h7,
      opt_known keeps_eq (ignores_eq _) h8]
  · rfl

theorem alike_pre {kvs kvs' : List (Str × Json)} (h : KnownMembers [(str! "grant_type", Eq), (str! "pre_authorized_code", Eq), (str! "user_pin", Eq)] kvs kvs') :
    GrantType.dePre (.obj kvs) = GrantType.dePre (.obj kvs') := by
  have hs := fields_known h (ks := [str! "pre_authorized_code", str! "user_pin"])
    (Rs := [Eq, Eq]) rfl
  unfold GrantType.dePre
  simp only [struct]
  revert hs
  generalize fields _ kvs = a, fields _ kvs' = b
  rintro (⟨hs⟩ | _)
  · obtain _ | ⟨h1, hs⟩ := hs
    obtain _ | ⟨h2, hs⟩ := hs
    cases hs
    dsimp only
    rw [req_known (ignores_eq _) h1, opt_known keeps_eq (ignores_eq _) h2]
  · rfl

theorem alike_grant : ReadAlike grantAlike GrantType.de := by
  rintro j j' (_ | ⟨kvs, kvs', h⟩)
  · rfl
  unfold GrantType.de
  rcases tagged_known h (tag := str! "grant_type") rfl with ⟨t, c, c', h1, h2, h3⟩ | ⟨h1, h2⟩
  · rw [h1, h2]
    simp only [alike_pre h3, GrantType.deUnit]
  · rw [h1, h2]

/-- C146. Token requests, with the grant in them. -/
theorem C146_token_request : ReadAlike tokenRequestAlike AccessTokenRequest.de := by
  rintro j j' (_ | ⟨kvs, kvs', h⟩)
  · rfl
  have hs := fields_known h (ks := [str! "grant_type"])
    (Rs := [grantAlike]) rfl
  unfold AccessTokenRequest.de
  simp only [struct]
  revert hs
  generalize fields _ kvs = a, fields _ kvs' = b
  rintro (⟨hs⟩ | _)
  · obtain _ | ⟨h1, hs⟩ := hs
    cases hs
    dsimp only
    rw [req_known alike_grant h1]
  · rfl

theorem alike_proof : ReadAlike proofAlike CredentialRequestProof.de := by
  rintro j j' (_ | ⟨kvs, kvs', h⟩)
  · rfl
  have hs := fields_known h (ks := [str! "proof_type", str! "jwt"]) (Rs := [Eq, Eq]) rfl
  unfold CredentialRequestProof.de
  simp only [struct]
  revert hs
  generalize fields _ kvs = a, fields _ kvs' = b
  rintro (⟨hs⟩ | _)
  · obtain _ | ⟨h1, hs⟩ := hs
    obtain _ | ⟨h2, hs⟩ := hs
    cases hs
    dsimp only
    rw [req_known (ignores_eq _) h2]
    cases h1 with
    | some h => cases h; rfl
    | none => rfl
  · rfl

/-- C146. Credential requests, with the proof and the credential in them. -/
theorem C146_request : ReadAlike requestAlike CredentialRequest.de := by
  rintro j j' (_ | ⟨kvs, kvs', h⟩)
  · rfl
  have hs := fields_known h (ks := [str! "proof"])
    (Rs := [proofAlike]) rfl
  have hr := alike_credential_members true (h.filter (fs' := credentialTable) (f := fun n => decide (n ∉ [str! "proof"])) (by
    intro k hk
    simp only [List.mem_cons, List.not_mem_nil, or_false, decide_eq_true_eq] at hk
    simp only [about, Ne.symm (hk), if_false]))
  unfold CredentialRequest.de
  simp only [structFlat]
  revert hs
  generalize fields _ kvs = a, fields _ kvs' = b
  rintro (⟨hs⟩ | _)
  · obtain _ | ⟨h1, hs⟩ := hs
    cases hs
    simp only [Option.map_some]
    rw [opt_known (keeps_known _) alike_proof h1, hr]
  · rfl

theorem alike_logo : ReadAlike logoAlike DisplayLogo.de := by
  rintro j j' (_ | ⟨kvs, kvs', h⟩)
  · rfl
  have hs := fields_known h (ks := [str! "url", str! "alt_text"])
    (Rs := [Eq, Eq]) rfl
  unfold DisplayLogo.de
  simp only [struct]
  revert hs
  generalize fields _ kvs = a, fields _ kvs' = b
  rintro (⟨hs⟩ | _)
  · obtain _ | ⟨h1, hs⟩ := hs
    obtain _ | ⟨h2, hs⟩ := hs
    cases hs
    dsimp only
    rw [opt_known keeps_eq (ignores_eq _) h1, opt_known keeps_eq (ignores_eq _) h2]
  · rfl

theorem alike_display : ReadAlike displayAlike DisplayProperties.de := by
  rintro j j' (_ | ⟨kvs, kvs', h⟩)
  · rfl
  have hs := fields_known h (ks := [str! "name", str! "locale", str! "logo", str! "description", str! "background_color", str! "text_color"])
    (Rs := [Eq, Eq, logoAlike, Eq, Eq, Eq]) rfl
  unfold DisplayProperties.de
  simp only [struct]
  revert hs
  generalize fields _ kvs = a, fields _ kvs' = b
  rintro (⟨hs⟩ | _)
  · obtain _ | ⟨h1, hs⟩ := hs
    obtain _ | ⟨h2, hs⟩ := hs
    obtain _ | ⟨h3, hs⟩ := hs
    obtain _ | ⟨h4, hs⟩ := hs
    obtain _ | ⟨h5, hs⟩ := hs
    obtain _ | ⟨h6, hs⟩ := hs
    cases hs
    dsimp only
    rw [req_known (ignores_eq _) h1, opt_known keeps_eq (ignores_eq _) h2,
      opt_known (keeps_known _) alike_logo h3, opt_known keeps_eq (ignores_eq _) h4,
      opt_known keeps_eq (ignores_eq _) h5, opt_known keeps_eq (ignores_eq _) h6]
  · rfl

/-- C146. Supported credentials. -/
theorem C146_supported : ReadAlike supportedAlike CredentialSupported.de := by
  rintro j j' (_ | ⟨kvs, kvs', h⟩)
  · rfl
  have hs := fields_known h (ks := [str! "id", str! "cryptographic_binding_mehtods_supported", str! "cryptographic_suites_supported", str! "display"])
    (Rs := [Eq, Eq, Eq, Each displayAlike]) rfl
  have hr := alike_credential_members true (h.filter (fs' := credentialTable) (f := fun n => decide (n ∉ [str! "id", str! "cryptographic_binding_mehtods_supported", str! "cryptographic_suites_supported", str! "display"])) (by
    intro k hk
    simp only [List.mem_cons, List.not_mem_nil, or_false, not_or, decide_eq_true_eq] at hk
    simp only [about, Ne.symm (hk.1), Ne.symm hk.2.1, Ne.symm hk.2.2.1, Ne.symm hk.2.2.2, if_false]))
  unfold CredentialSupported.de
  simp only [structFlat]
  revert hs
  generalize fields _ kvs = a, fields _ kvs' = b
  rintro (⟨hs⟩ | _)
  · obtain _ | ⟨h1, hs⟩ := hs
    obtain _ | ⟨h2, hs⟩ := hs
    obtain _ | ⟨h3, hs⟩ := hs
    obtain _ | ⟨h4, hs⟩ := hs
    cases hs
    simp only [Option.map_some]
    rw [opt_known keeps_eq (ignores_eq _) h1, opt_known keeps_eq (ignores_eq _) h2,
      opt_known keeps_eq (ignores_eq _) h3, opt_known (keeps_each _) (vec_known alike_display) h4, hr]
  · rfl

/-- C146. Bodies of proofs. -/
theorem C146_body (x : Ext) : ReadAlike bodyAlike (ProofJwtBody.de x) := by
  rintro j j' (_ | ⟨kvs, kvs', h⟩)
  · rfl
  have hs := fields_known h (ks := [str! "iss", str! "aud", str! "sub", str! "iat", str! "nonce", str! "nbf", str! "exp"])
    (Rs := [Eq, Eq, Eq, Eq, Eq, Eq, Eq]) rfl
  unfold ProofJwtBody.de
  simp only [struct]
  revert hs
  generalize fields _ kvs = a, fields _ kvs' = b
  rintro (⟨hs⟩ | _)
  · obtain _ | ⟨h1, hs⟩ := hs
    obtain _ | ⟨h2, hs⟩ := hs
    obtain _ | ⟨h3, hs⟩ := hs
    obtain _ | ⟨h4, hs⟩ := hs
    obtain _ | ⟨h5, hs⟩ := hs
    obtain _ | ⟨h6, hs⟩ := hs
    obtain _ | ⟨h7, hs⟩ := hs
    cases hs
    dsimp only
    rw [opt_known keeps_eq (ignores_eq _) h1, req_known (ignores_eq _) h2,
      opt_known keeps_eq (ignores_eq _) h3, req_known (ignores_eq _) h4, req_known (ignores_eq _) h5,
      opt_known keeps_eq (ignores_eq _) h6, opt_known keeps_eq (ignores_eq _) h7]
  · rfl

theorem alike_stored (x : Ext) : ReadAlike storedNonceAlike (CNonceOptions.de x) := by
  rintro j j' (_ | ⟨kvs, kvs', h⟩)
  · rfl
  have hs := fields_known h (ks := [str! "c_nonce_expires_in", str! "expected_c_nonce", str! "c_nonce_created_at"])
    (Rs := [Eq, Eq, Eq]) rfl
  unfold CNonceOptions.de
  simp only [struct]
  revert hs
  generalize fields _ kvs = a, fields _ kvs' = b
  rintro (⟨hs⟩ | _)
  · obtain _ | ⟨h1, hs⟩ := hs
    obtain _ | ⟨h2, hs⟩ := hs
    obtain _ | ⟨h3, hs⟩ := hs
    cases hs
    dsimp only
    rw [req_known (ignores_eq _) h1, req_known (ignores_eq _) h2, req_known (ignores_eq _) h3]
  · rfl

/-- C146. Settings of the credential request, with the nonce in them. -/
theorem C146_settings (x : Ext) : ReadAlike requestSettingsAlike (EvaluateCredentialRequestOptions.de x) := by
  rintro j j' (_ | ⟨kvs, kvs', h⟩)
  · rfl
  have hs := fields_known h (ks := [str! "c_nonce", str! "client_id"])
    (Rs := [storedNonceAlike, Eq]) rfl
  unfold EvaluateCredentialRequestOptions.de
  simp only [struct]
  revert hs
  generalize fields _ kvs = a, fields _ kvs' = b
  rintro (⟨hs⟩ | _)
  · obtain _ | ⟨h1, hs⟩ := hs
    obtain _ | ⟨h2, hs⟩ := hs
    cases hs
    dsimp only
    rw [opt_known (keeps_known _) (alike_stored x) h1, opt_known keeps_eq (ignores_eq _) h2]
  · rfl

theorem alike_carried : ReadAlike (EachEntry credentialAlike) CredentialFormatProfileOrEncoded.de := by
  rintro j j' (_ | ⟨kvs, kvs', h⟩)
  · rfl
  · rcases h with _ | ⟨hm, _ | ⟨_, _⟩⟩
    · rfl
    · rename_i m m'
      obtain ⟨n, v⟩ := m
      obtain ⟨n', v'⟩ := m'
      obtain ⟨rfl, hv⟩ := hm
      simp only [CredentialFormatProfileOrEncoded.de, C146_credential false _ _ hv, alike_string _ _ hv]
    · rfl

/-- C146. Credential responses, and what is inside of the credential. **Missing:** a second member beside the one that tells the kind of the credential (`C146_refuted_response`). -/
theorem C146_response_partial : ReadAlike responseAlike CredentialSuccessResponse.de := by
  rintro j j' (_ | ⟨kvs, kvs', h⟩)
  · rfl
  have hs := fields_known h (ks := [str! "format", str! "credential", str! "acceptance_token", str! "c_nonce", str! "c_nonce_expires_in"])
    (Rs := [Eq, EachEntry credentialAlike, Eq, Eq, Eq]) rfl
  unfold CredentialSuccessResponse.de
  simp only [struct]
  revert hs
  generalize fields _ kvs = a, fields _ kvs' = b
  rintro (⟨hs⟩ | _)
  · obtain _ | ⟨h1, hs⟩ := hs
    obtain _ | ⟨h2, hs⟩ := hs
    obtain _ | ⟨h3, hs⟩ := hs
    obtain _ | ⟨h4, hs⟩ := hs
    obtain _ | ⟨h5, hs⟩ := hs
    cases hs
    dsimp only
    rw [req_known (ignores_eq _) h1, opt_known (keeps_entries _) alike_carried h2,
      opt_known keeps_eq (ignores_eq _) h3, opt_known keeps_eq (ignores_eq _) h4,
      opt_known keeps_eq (ignores_eq _) h5]
  · rfl

/-- C146. Settings of the token request. -/
theorem C146_token_settings : ReadAlike tokenSettingsAlike EvaluateAccessTokenRequestOptions.de := by
  rintro j j' (_ | ⟨kvs, kvs', h⟩)
  · rfl
  have hs := fields_known h (ks := [str! "expected_user_pin"])
    (Rs := [Eq]) rfl
  unfold EvaluateAccessTokenRequestOptions.de
  simp only [struct]
  revert hs
  generalize fields _ kvs = a, fields _ kvs' = b
  rintro (⟨hs⟩ | _)
  · obtain _ | ⟨h1, hs⟩ := hs
    cases hs
    dsimp only
    rw [opt_known keeps_eq (ignores_eq _) h1]
  · rfl

/-- C146. Nonces. -/
theorem C146_nonce : ReadAlike nonceAlike CNonce.de := by
  rintro j j' (_ | ⟨kvs, kvs', h⟩)
  · rfl
  have hs := fields_known h (ks := [str! "c_nonce", str! "c_nonce_expires_in"])
    (Rs := [Eq, Eq]) rfl
  unfold CNonce.de
  simp only [struct]
  revert hs
  generalize fields _ kvs = a, fields _ kvs' = b
  rintro (⟨hs⟩ | _)
  · obtain _ | ⟨h1, hs⟩ := hs
    obtain _ | ⟨h2, hs⟩ := hs
    cases hs
    dsimp only
    rw [req_known (ignores_eq _) h1, opt_known keeps_eq (ignores_eq _) h2]
  · rfl

/-- C146. Metadata of an authorization server. -/
theorem C146_server : ReadAlike serverAlike AuthorizationServerMetadata.de := by
  rintro j j' (_ | _) <;> rfl


/-- Names of keys in a header, with nothing else to say about them. -/
theorem known_eq {fs : List (Str × Likeness)} {kvs kvs' : List (Str × Json)} (h : KnownMembers fs kvs kvs') {f : Str → Bool}
    (hf : ∀ k, f k = true → about k fs = some Eq) :
    kvs.filter (fun m => f m.1) = kvs'.filter fun m => f m.1 := by
  have key : ∀ l : List (Str × Json), l.filter (fun m => f m.1) =
      (l.filter fun m => (about m.1 fs).isSome).filter fun m => f m.1 := by
    intro l
    rw [List.filter_filter]
    refine List.filter_congr ?_
    rintro ⟨n, v⟩ -
    dsimp only
    cases hn : f n with
    | false => simp
    | true => rw [hf n hn]; rfl
  unfold KnownMembers at h
  rw [key kvs, key kvs']
  revert h
  generalize List.filter (fun m => (about m.1 fs).isSome) kvs = a, List.filter (fun m => (about m.1 fs).isSome) kvs' = b
  intro h
  induction h with
  | nil => rfl
  | @cons m m' l l' hm _ ih =>
    obtain ⟨n, v⟩ := m
    obtain ⟨n', v'⟩ := m'
    obtain ⟨rfl, S, hS, hv⟩ := hm
    cases hn : f n with
    | false => simpa [List.filter_cons, hn] using ih
    | true =>
      rw [hf n hn] at hS
      cases hS
      cases hv
      simp only [List.filter_cons, hn, if_true, ih]

/-- C146. Headers of proofs. -/
theorem C146_header : ReadAlike headerAlike ProofJwtHeader.de := by
  rintro j j' (_ | ⟨kvs, kvs', h⟩)
  · rfl
  have hs := fields_known h (ks := [str! "typ", str! "alg"]) (Rs := [Eq, Eq]) rfl
  have hd : ProofJwtAdditionalHeader.deFlat (kvs.filter fun p => decide (p.1 ∉ [str! "typ", str! "alg"])) =
      ProofJwtAdditionalHeader.deFlat (kvs'.filter fun p => decide (p.1 ∉ [str! "typ", str! "alg"])) := by
    rw [deFlat_keyNames, deFlat_keyNames (List.filter _ kvs'), List.filter_filter, List.filter_filter]
    congr 1
    refine known_eq h (f := fun m => decide (m ∈ keyNames) && decide (m ∉ [str! "typ", str! "alg"])) ?_
    intro k hk
    simp only [keyNames, Bool.and_eq_true, decide_eq_true_eq, List.mem_cons, List.not_mem_nil, or_false] at hk
    rcases hk.1 with rfl | rfl | rfl <;> rfl
  unfold ProofJwtHeader.de
  simp only [structFlat]
  revert hs
  generalize fields _ kvs = a, fields _ kvs' = b
  rintro (⟨hs⟩ | _)
  · obtain _ | ⟨h1, hs⟩ := hs
    obtain _ | ⟨h2, hs⟩ := hs
    cases hs
    simp only [Option.map_some]
    rw [req_known (ignores_eq _) h1, req_known (ignores_eq _) h2, hd]
  · rfl

/-- C146. Proofs as documents. -/
theorem C146_jwt (x : Ext) : ReadAlike jwtAlike (ProofJwt.de x) := by
  rintro j j' (_ | ⟨kvs, kvs', h⟩)
  · rfl
  have hs := fields_known h (ks := [str! "header", str! "body", str! "signature"])
    (Rs := [headerAlike, bodyAlike, Eq]) rfl
  unfold ProofJwt.de
  simp only [struct]
  revert hs
  generalize fields _ kvs = a, fields _ kvs' = b
  rintro (⟨hs⟩ | _)
  · rename_i a b
    obtain _ | ⟨h1, hs⟩ := hs
    obtain _ | ⟨h2, hs⟩ := hs
    obtain _ | ⟨h3, hs⟩ := hs
    cases hs
    dsimp only
    rw [req_known C146_header h1, req_known (C146_body x) h2, opt_known keeps_eq (ignores_eq _) h3]
  · rfl

theorem entries_total (acc : HMap Json) (kvs : List (Str × Json)) :
    ∃ m, entries (fun j => some (Serde.value j)) acc kvs = some m := by
  induction kvs generalizing acc with
  | nil => exact ⟨_, rfl⟩
  | cons kv kvs ih =>
    obtain ⟨k, v⟩ := kv
    exact ih _

/-- C146. Issuer metadata, but for the additional fields. **Missing:** these, which are the unknown members
(`C146_refuted_metadata`). -/
theorem C146_metadata_partial : ReadAlike metadataAlike fun j =>
    (CredentialIssuerMetadata.de j).map fun m => { m with additionalFields := none } := by
  rintro j j' (_ | ⟨kvs, kvs', h⟩)
  · rfl
  have hs := fields_known h (ks := ownMetadataNames) (Rs := [Eq, Eq, Eq, Eq, Each supportedAlike]) rfl
  dsimp only
  unfold CredentialIssuerMetadata.de
  unfold ownMetadataNames at hs
  simp only [structFlat]
  revert hs
  generalize fields _ kvs = a, fields _ kvs' = b
  obtain ⟨m, hm⟩ := entries_total [] (kvs.filter fun p => decide (p.1 ∉ ownMetadataNames))
  obtain ⟨m', hm'⟩ := entries_total [] (kvs'.filter fun p => decide (p.1 ∉ ownMetadataNames))
  unfold ownMetadataNames at hm hm'
  rintro (⟨hs⟩ | _)
  · obtain _ | ⟨h1, hs⟩ := hs
    obtain _ | ⟨h2, hs⟩ := hs
    obtain _ | ⟨h3, hs⟩ := hs
    obtain _ | ⟨h4, hs⟩ := hs
    obtain _ | ⟨h5, hs⟩ := hs
    cases hs
    simp only [Option.map_some]
    rw [req_known (ignores_eq _) h1, opt_known keeps_eq (ignores_eq _) h2, req_known (ignores_eq _) h3,
      opt_known keeps_eq (ignores_eq _) h4, req_known (vec_known C146_supported) h5, hm, hm']
    simp only [Option.bind_eq_bind, Option.map_bind, Function.comp_def, Option.bind_some, Option.map_some]
  · rfl

/-- C146, for texts: offers and requests, as far as their texts are read at all. -/
theorem C146_texts {s s' : Str} {j j' : Json} :
    (Json.see CredentialOffer.shape s = some j → Json.see CredentialOffer.shape s' = some j' → offerAlike j j' →
      CredentialOffer.fromJson s = CredentialOffer.fromJson s') ∧
    (Json.see CredentialRequest.shape s = some j → Json.see CredentialRequest.shape s' = some j' → requestAlike j j' →
      CredentialRequest.fromJson s = CredentialRequest.fromJson s') := by
  refine ⟨fun h h' a => ?_, fun h h' a => ?_⟩
  · unfold CredentialOffer.fromJson
    rw [h, h']
    exact C146_offer _ _ a
  · unfold CredentialRequest.fromJson
    rw [h, h']
    exact C146_request _ _ a

/-- **Claim C146**, in full: for issuer metadata and for what carries the credential in a response as well. -/
def C146_statement : Prop :=
  ReadAlike metadataAlike CredentialIssuerMetadata.de ∧ ReadAlike carriedAlike CredentialFormatProfileOrEncoded.de

/-- **The code violates C146**: issuer metadata with an unknown member is something else … -/
theorem C146_refuted_metadata : ¬ ReadAlike metadataAlike CredentialIssuerMetadata.de := by
  intro h
  have h1 := h (.obj [(str! "credential_issuer", .str []), (str! "credential_endpoint", .str []),
      (str! "credentials_supported", .arr [])])
    (.obj [(str! "x", .null), (str! "credential_issuer", .str []), (str! "credential_endpoint", .str []),
      (str! "credentials_supported", .arr [])])
    (.members _ _ (.cons ⟨rfl, _, rfl, rfl⟩ (.cons ⟨rfl, _, rfl, rfl⟩ (.cons ⟨rfl, _, rfl, .same _⟩ .nil))))
  exact absurd h1 (by decide +kernel)

/-- A credential with a further member beside it is not read, whatever the member is. -/
theorem C146_beside (c v : Json) (n : Str) :
    CredentialFormatProfileOrEncoded.de (.obj [(str! "Encoded", c), (n, v)]) = none := rfl

/-- … and the credential of a response is not found beside an unknown member. -/
theorem C146_refuted_response : ¬ ReadAlike carriedAlike CredentialFormatProfileOrEncoded.de := by
  intro h
  have h1 := h (.obj [(str! "Encoded", .str [])]) (.obj [(str! "Encoded", .str []), (str! "x", .null)])
    (.members _ _ (.cons ⟨rfl, _, rfl, rfl⟩ .nil))
  rw [C146_beside] at h1
  cases h1

/-- **The code violates C146.** -/
theorem C146_refuted : ¬ C146_statement := fun h => C146_refuted_metadata h.1

/-! ### Cases -/

namespace Ex

/-- A request with unknown members at three depths, and without. -/
def plainRequest : Json :=
  .obj [(str! "format", .str (str! "mso_mdoc")), (str! "doctype", .str (str! "d")),
    (str! "claims", .obj [(str! "age", .obj [(str! "mandatory", .bool true)])]),
    (str! "proof", .obj [(str! "jwt", .str (str! "a.b"))])]

def grownRequest : Json :=
  .obj [(str! "version", .num 2), (str! "format", .str (str! "mso_mdoc")), (str! "doctype", .str (str! "d")),
    (str! "claims", .obj [(str! "age", .obj [(str! "mandatory", .bool true), (str! "unit", .str (str! "years"))])]),
    (str! "proof", .obj [(str! "cwt", .null), (str! "jwt", .str (str! "a.b"))])]

theorem request_grown : requestAlike plainRequest grownRequest :=
  .members _ _ (.cons ⟨rfl, _, rfl, rfl⟩ (.cons ⟨rfl, _, rfl, rfl⟩ (.cons ⟨rfl, _, rfl,
    .entries _ _ (.cons ⟨rfl, .members _ _ (.cons ⟨rfl, _, rfl, rfl⟩ .nil)⟩ .nil)⟩
    (.cons ⟨rfl, _, rfl, .members _ _ (.cons ⟨rfl, _, rfl, rfl⟩ .nil)⟩ .nil))))

example : CredentialRequest.de grownRequest = CredentialRequest.de plainRequest ∧
    CredentialRequest.de plainRequest = some ⟨.msoMdoc (str! "d") (some [(str! "age", ⟨some true, none, none⟩)]) none,
      some ⟨str! "JWT", str! "a.b"⟩⟩ :=
  ⟨(C146_request _ _ request_grown).symm, by decide +kernel⟩

/-- A claim is not an unknown member, nor is a second member of a known name. -/
example : CredentialRequest.de (.obj [(str! "format", .str (str! "mso_mdoc")), (str! "doctype", .str (str! "d")),
    (str! "doctype", .str (str! "d"))]) = none := by decide +kernel

/-- Headers with members for later. -/
example : ProofJwtHeader.de (.obj [(str! "typ", .str (str! "t")), (str! "alg", .str (str! "ES256")),
    (str! "trust_chain", .arr []), (str! "jwk", .str (str! "k"))]) = some ⟨str! "t", .ES256, some (.jwk (str! "k"))⟩ := by
  refine (C146_header (.obj [(str! "typ", .str (str! "t")), (str! "alg", .str (str! "ES256")),
    (str! "jwk", .str (str! "k"))]) _ ?_).symm.trans rfl
  exact .members _ _ (.cons ⟨rfl, _, rfl, rfl⟩ (.cons ⟨rfl, _, rfl, rfl⟩ (.cons ⟨rfl, _, rfl, rfl⟩ .nil)))

end Ex

end Oid4vci
