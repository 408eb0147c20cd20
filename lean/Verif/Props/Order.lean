import Mathlib.Data.List.Perm.Basic
import Verif.Lemmas.Order
import Verif.Props.Unique

/-!
C142: the order of members means nothing, at any depth. Violated by the header of a proof: with two of `kid`,
`jwk` and `x5c` the first one counts.
-/

namespace Oid4vci

open Serde Spec

variable {P : Json → Prop}

/-! ### Values made of members -/

/-- The members of a map, none of which replaces another. -/
def pairs {α : Type} (d : De α) : List (Str × Json) → Option (HMap α)
  | [] => some []
  | (k, j) :: r => (d j).bind fun a => (pairs d r).map fun m => (k, a) :: m

theorem entries_pairs {α : Type} {d : De α} {kvs : List (Str × Json)} (h : (kvs.map Prod.fst).Nodup)
    (acc : HMap α) (ha : ∀ k ∈ acc.map Prod.fst, k ∉ kvs.map Prod.fst) :
    entries d acc kvs = (pairs d kvs).map fun m => acc ++ m := by
  induction kvs generalizing acc with
  | nil => simp [entries, pairs]
  | cons p kvs ih =>
    obtain ⟨k, j⟩ := p
    simp only [List.map_cons, List.nodup_cons] at h
    simp only [entries, pairs]
    cases hd : d j with
    | none => rfl
    | some a =>
      simp only
      rw [hinsert_new acc k a fun hk => ha k hk (by simp), ih h.2]
      · cases pairs d kvs with
        | none => rfl
        | some vs => simp
      · intro n hn
        rw [List.map_append, List.mem_append] at hn
        rcases hn with hn | hn
        · exact fun hh => ha n hn (by rw [List.map_cons]; exact List.mem_cons_of_mem _ hh)
        · simp only [List.map_cons, List.map_nil, List.mem_singleton] at hn
          rw [hn]; exact h.1

theorem pairs_perm {α : Type} (d : De α) {kvs kvs' : List (Str × Json)} (h : kvs.Perm kvs') :
    Option.Rel SameMap (pairs d kvs) (pairs d kvs') := by
  induction h with
  | nil => exact .some (.refl _)
  | cons p _ ih =>
    obtain ⟨k, j⟩ := p
    simp only [pairs]
    cases d j with
    | none => exact .none
    | some a => exact optionRel_map ih fun _ _ h => List.Perm.cons _ h
  | swap p q l =>
    obtain ⟨k, j⟩ := p
    obtain ⟨k', j'⟩ := q
    simp only [pairs]
    cases d j <;> cases d j' <;> cases pairs d l <;> try exact .none
    exact .some (List.Perm.swap _ _ _)
  | trans _ _ ih ih' =>
    revert ih ih'
    generalize pairs d _ = a, pairs d _ = b, pairs d _ = c
    rintro (h | _) h'
    · cases h' with
      | some h' => exact .some (List.Perm.trans (by assumption) h')
    · exact h'

theorem pairs_same {α : Type} {d : De α} (hd : Indifferent P d (· = ·)) {kvs kvs' : List (Str × Json)}
    (h : SameMembers kvs kvs') (hp : ∀ p ∈ kvs, P p.2) : pairs d kvs = pairs d kvs' := by
  induction h with
  | nil => rfl
  | cons h _ ih =>
    rename_i a b l m _
    obtain ⟨k, v⟩ := a
    obtain ⟨k', v'⟩ := b
    obtain ⟨rfl, h⟩ := h
    simp only [pairs]
    rw [optionRel_eq_eq (hd _ _ h (hp _ (by simp))), ih fun p hp' => hp p (by simp [hp'])]

/-- Names stay unique. -/
theorem Spec.UniqueNames.reordered {j j' : Json} (h : Reordered j j') : UniqueNames j → UniqueNames j' := by
  induction h with
  | refl => exact id
  | trans _ _ ih ih' => exact fun h => ih' (ih h)
  | members h =>
    rw [uniqueNames_obj, uniqueNames_obj]
    exact fun hu => ⟨(h.map _).nodup_iff.1 hu.1, fun p hp => hu.2 p (h.mem_iff.2 hp)⟩
  | element b a h ih =>
    simp only [UniqueNames, uniqueNamesList_iff]
    intro hu v hv
    simp only [List.mem_append, List.mem_cons] at hv hu
    rcases hv with hv | rfl | hv
    · exact hu v (.inl hv)
    · exact ih (hu _ (.inr (.inl rfl)))
    · exact hu v (.inr (.inr hv))
  | value b a k h ih =>
    rw [uniqueNames_obj, uniqueNames_obj]
    intro hu
    refine ⟨by simpa using hu.1, fun p hp => ?_⟩
    simp only [List.mem_append, List.mem_cons] at hp
    rcases hp with hp | rfl | hp
    · exact hu.2 p (by simp [hp])
    · exact ih (hu.2 (k, _) (by simp))
    · exact hu.2 p (by simp [hp])

/-- Maps, on documents which name each member once. -/
theorem entries_alike {α : Type} {d : De α} (hd : Indifferent UniqueNames d (· = ·))
    {kvs kvs' : List (Str × Json)} (h : Reordered (.obj kvs) (.obj kvs')) (hp : UniqueNames (.obj kvs)) :
    Option.Rel SameMap (entries d [] kvs) (entries d [] kvs') := by
  have hp' := hp.reordered h
  rw [entries_pairs ((uniqueNames_obj _).1 hp).1 [] (by simp),
    entries_pairs ((uniqueNames_obj _).1 hp').1 [] (by simp)]
  obtain ⟨mid, hm, hs⟩ := h.alike
  have := pairs_perm d hm
  rw [pairs_same hd hs fun p hp' => ((uniqueNames_obj _).1 hp).2 p (hm.mem_iff.2 hp')] at this
  exact optionRel_map this fun _ _ h => h

theorem indifferent_hmap {α : Type} {d : De α} (hd : Indifferent UniqueNames d (· = ·)) :
    Indifferent UniqueNames (hmap d) SameMap := by
  intro j j' h hp
  have ha := h.alike
  cases j with
  | arr xs =>
    cases j' with
    | arr ys => exact .none
    | _ => exact absurd ha id
  | obj xs =>
    cases j' with
    | obj ys => exact entries_alike hd h hp
    | _ => exact absurd ha id
  | _ => cases ha; exact .none

theorem binsert_perm {m : List (Str × Json)} {k : Str} {v : Json} (h : k ∉ m.map Prod.fst) :
    (binsert m k v).Perm ((k, v) :: m) := by
  induction m with
  | nil => exact .refl _
  | cons p m ih =>
    obtain ⟨k', v'⟩ := p
    simp only [List.map_cons, List.mem_cons, not_or] at h
    rw [binsert, if_neg h.1]
    split
    · exact .refl _
    · exact (List.Perm.cons _ (ih h.2)).trans (.swap _ _ _)

theorem valueEntries_perm {kvs : List (Str × Json)} (h : (kvs.map Prod.fst).Nodup) (acc : List (Str × Json))
    (ha : ∀ k ∈ acc.map Prod.fst, k ∉ kvs.map Prod.fst) :
    (valueEntries acc kvs).Perm (acc ++ kvs.map fun p => (p.1, Serde.value p.2)) := by
  induction kvs generalizing acc with
  | nil => simp [valueEntries]
  | cons p kvs ih =>
    obtain ⟨k, j⟩ := p
    simp only [List.map_cons, List.nodup_cons] at h
    have hb := binsert_perm (v := Serde.value j) (fun hk : k ∈ acc.map Prod.fst => ha k hk (by simp))
    rw [valueEntries]
    refine (ih h.2 _ ?_).trans ?_
    · intro n hn
      have hn := (hb.map Prod.fst).mem_iff.1 hn
      rw [List.map_cons, List.mem_cons] at hn
      rcases hn with rfl | hn
      · exact h.1
      · exact fun hh => ha n hn (by rw [List.map_cons]; exact List.mem_cons_of_mem _ hh)
    · refine (hb.append_right _).trans ?_
      rw [List.map_cons]
      exact List.perm_middle.symm

theorem valueList_map (vs : List Json) : valueList vs = vs.map Serde.value := by
  induction vs with
  | nil => simp [valueList]
  | cons v vs ih => simp [valueList, ih]

theorem valueEntries_value {k : Str} {v v' : Json} (h : Serde.value v = Serde.value v')
    {b a : List (Str × Json)} {acc : List (Str × Json)} :
    valueEntries acc (b ++ (k, v) :: a) = valueEntries acc (b ++ (k, v') :: a) := by
  induction b generalizing acc with
  | nil => simp only [List.nil_append, valueEntries, h]
  | cons p b ih =>
    obtain ⟨n, w⟩ := p
    simp only [List.cons_append, valueEntries, ih]

/-- A `serde_json::Value` does not depend on the order of members. -/
theorem value_reordered {j j' : Json} (h : Reordered j j') : UniqueNames j → Serde.value j = Serde.value j' := by
  induction h with
  | refl => exact fun _ => rfl
  | trans h _ ih ih' => exact fun hu => (ih hu).trans (ih' (hu.reordered h))
  | element b a h ih =>
    intro hu
    have := (uniqueNamesList_iff _).1 (by simpa only [UniqueNames] using hu)
    simp only [Serde.value, valueList_map, List.map_append, List.map_cons, ih (this _ (by simp))]
  | value b a k h ih =>
    intro hu
    have hv := ih (((uniqueNames_obj _).1 hu).2 (k, _) (by simp))
    simp only [Serde.value, valueEntries_value hv]
  | members h =>
    intro hu
    have hu' := hu.reordered (.members h)
    have h1 := valueEntries_perm ((uniqueNames_obj _).1 hu).1 [] (by simp)
    have h2 := valueEntries_perm ((uniqueNames_obj _).1 hu').1 [] (by simp)
    have h3 := (h1.trans (h.map _)).trans h2.symm
    simp only [Serde.value, Json.obj.injEq]
    refine h3.eq_of_pairwise (fun a b _ _ hab hba => absurd (List.lt_trans hab hba) (str_lt_irrefl _))
      (valueEntries_isNormal _ [] .nil (by simp)).1 (valueEntries_isNormal _ [] .nil (by simp)).1

/-! ### The types -/

/-- Optional strings, in a vector. -/
theorem indifferent_strings (H : Hereditary P) : Indifferent P (vec Serde.string) (· = ·) :=
  indifferent_vec_eq H indifferent_string

/-- Unit variants, written as objects. -/
theorem single_alike {α : Type} (g : Json → Option α) (hg :
    ∀ kvs, (¬ ∃ k, kvs = [(k, .null)]) → g (.obj kvs) = none)
    {kvs mid kvs' : List (Str × Json)} (h : kvs.Perm mid) (h' : SameMembers mid kvs') :
    g (.obj kvs) = g (.obj kvs') := by
  by_cases hk : ∃ k, kvs = [(k, .null)]
  · obtain ⟨k, rfl⟩ := hk
    rw [← List.singleton_perm.1 h] at h'
    rcases h' with _ | ⟨h1, _ | _⟩
    rename_i b
    obtain ⟨k', v'⟩ := b
    obtain ⟨rfl, h1⟩ := h1
    have e : v' = .null := (reordered_null h1).1 rfl
    rw [e]
  · rw [hg kvs hk, hg kvs']
    rintro ⟨k, rfl⟩
    rcases h' with _ | ⟨h1, _ | _⟩
    rename_i b
    obtain ⟨k', v'⟩ := b
    obtain ⟨rfl, h1⟩ := h1
    have e : v' = .null := (reordered_null h1).2 rfl
    rw [e] at h
    exact hk ⟨k', List.perm_singleton.1 h⟩

theorem indifferent_display (H : Hereditary P) : Indifferent P CredentialSubjectDisplay.de (· = ·) := by
  intro j j' h hp
  have hs := struct_alike H [str! "name", str! "locale"] h hp
  unfold CredentialSubjectDisplay.de
  revert hs
  generalize struct _ j = a, struct _ j' = b
  rintro (⟨_ | ⟨h1, _ | ⟨h2, _ | ⟨_, _⟩⟩⟩⟩ | _) <;> try exact .none
  refine optionRel_bind (indifferent_opt_eq indifferent_string h1) ?_
  rintro _ _ rfl
  refine optionRel_bind (indifferent_opt_eq indifferent_string h2) ?_
  rintro _ _ rfl
  exact .some rfl

theorem indifferent_subject (H : Hereditary P) : Indifferent P CredentialSubject.de (· = ·) := by
  intro j j' h hp
  have hs := struct_alike H [str! "mandatory", str! "valueType", str! "display"] h hp
  unfold CredentialSubject.de
  revert hs
  generalize struct _ j = a, struct _ j' = b
  rintro (⟨_ | ⟨h1, _ | ⟨h2, _ | ⟨h3, _ | ⟨_, _⟩⟩⟩⟩⟩ | _) <;> try exact .none
  refine optionRel_bind (indifferent_opt_eq indifferent_bool h1) ?_
  rintro _ _ rfl
  refine optionRel_bind (indifferent_opt_eq indifferent_string h2) ?_
  rintro _ _ rfl
  refine optionRel_bind (indifferent_opt_eq (indifferent_vec_eq H (indifferent_display H)) h3) ?_
  rintro _ _ rfl
  exact .some rfl

theorem indifferent_value : Indifferent UniqueNames (fun j => some (Serde.value j)) (· = ·) :=
  fun _ _ h hp => .some (value_reordered h hp)

theorem indifferent_context : Indifferent UniqueNames LinkedDataContext.de SameContext := by
  intro j j' h hp
  have h1 := indifferent_string j j' h hp
  have h2 := indifferent_hmap indifferent_value j j' h hp
  unfold LinkedDataContext.de
  rw [optionRel_eq_eq h1]
  cases Serde.string j' with
  | some s => exact .some rfl
  | none => exact optionRel_map h2 fun _ _ h => h

theorem indifferent_jwt_content :
    Indifferent UniqueNames CredentialFormatProfile.deJwt (fun a b => a.1 = b.1 ∧ Option.Rel SameMap a.2.1 b.2.1 ∧ a.2.2 = b.2.2) := by
  intro j j' h hp
  have hs := struct_alike hereditary_unique [str! "types", str! "credentialSubject", str! "order"] h hp
  unfold CredentialFormatProfile.deJwt
  revert hs
  generalize struct _ j = a, struct _ j' = b
  rintro (⟨_ | ⟨h1, _ | ⟨h2, _ | ⟨h3, _ | ⟨_, _⟩⟩⟩⟩⟩ | _) <;> try exact .none
  refine optionRel_bind (indifferent_req (indifferent_strings hereditary_unique) h1) ?_
  rintro _ _ rfl
  refine optionRel_bind (indifferent_opt (indifferent_hmap (indifferent_subject hereditary_unique)) h2) ?_
  intro _ _ s2
  refine optionRel_bind (indifferent_opt_eq (indifferent_strings hereditary_unique) h3) ?_
  rintro _ _ rfl
  exact .some ⟨rfl, s2, rfl⟩

theorem indifferent_ldp_content : Indifferent UniqueNames CredentialFormatProfile.deLdp SameCredential := by
  intro j j' h hp
  have hs := struct_alike hereditary_unique [str! "@context", str! "types", str! "credentialSubject",
    str! "order"] h hp
  unfold CredentialFormatProfile.deLdp
  revert hs
  generalize struct _ j = a, struct _ j' = b
  rintro (⟨_ | ⟨h1, _ | ⟨h2, _ | ⟨h3, _ | ⟨h4, _ | ⟨_, _⟩⟩⟩⟩⟩⟩ | _) <;> try exact .none
  refine optionRel_bind (indifferent_req (indifferent_vec hereditary_unique indifferent_context) h1) ?_
  intro _ _ s1
  refine optionRel_bind (indifferent_req (indifferent_strings hereditary_unique) h2) ?_
  rintro _ _ rfl
  refine optionRel_bind (indifferent_opt (indifferent_hmap (indifferent_subject hereditary_unique)) h3) ?_
  intro _ _ s3
  refine optionRel_bind (indifferent_opt_eq (indifferent_strings hereditary_unique) h4) ?_
  rintro _ _ rfl
  exact .some ⟨s1, rfl, s3, rfl⟩

theorem indifferent_mdoc_content : Indifferent UniqueNames CredentialFormatProfile.deMdoc SameCredential := by
  intro j j' h hp
  have hs := struct_alike hereditary_unique [str! "doctype", str! "claims", str! "order"] h hp
  unfold CredentialFormatProfile.deMdoc
  revert hs
  generalize struct _ j = a, struct _ j' = b
  rintro (⟨_ | ⟨h1, _ | ⟨h2, _ | ⟨h3, _ | ⟨_, _⟩⟩⟩⟩⟩ | _) <;> try exact .none
  refine optionRel_bind (indifferent_req indifferent_string h1) ?_
  rintro _ _ rfl
  refine optionRel_bind (indifferent_opt (indifferent_hmap (indifferent_subject hereditary_unique)) h2) ?_
  intro _ _ s2
  refine optionRel_bind (indifferent_opt_eq (indifferent_strings hereditary_unique) h3) ?_
  rintro _ _ rfl
  exact .some ⟨rfl, s2, rfl⟩

/-- Credentials. -/
theorem C142_credential (b : Bool) : Indifferent UniqueNames (CredentialFormatProfile.de b) SameCredential := by
  intro j j' h hp
  have ht := tagged_alike hereditary_unique (str! "format") h hp
  unfold CredentialFormatProfile.de
  revert ht
  generalize tagged _ j = a, tagged _ j' = b
  rintro (ht | _) <;> try exact .none
  rename_i a b
  obtain ⟨⟨ht, -⟩, hc, hpc⟩ := ht
  obtain ⟨t, c⟩ := a
  obtain ⟨t', c'⟩ := b
  simp only at ht hc hpc ⊢
  rw [variant_alike _ _ ht]
  split
  · exact optionRel_map (indifferent_jwt_content c c' hc hpc) fun _ _ h => h
  · exact optionRel_map (indifferent_jwt_content c c' hc hpc) fun _ _ h => h
  · exact indifferent_ldp_content c c' hc hpc
  · exact indifferent_mdoc_content c c' hc hpc
  · exact .none

theorem indifferent_entry : Indifferent UniqueNames CredentialOrId.de SameEntry := by
  intro j j' h hp
  have h1 := indifferent_string j j' h hp
  unfold CredentialOrId.de
  rw [optionRel_eq_eq h1]
  cases Serde.string j' with
  | some s => exact .some rfl
  | none => exact optionRel_map (C142_credential true j j' h hp) fun _ _ h => h

theorem indifferent_authorized (H : Hereditary P) : Indifferent P AuthorizedCodeFlow.de (· = ·) := by
  intro j j' h hp
  have hs := struct_alike H [str! "issuer_state"] h hp
  unfold AuthorizedCodeFlow.de
  revert hs
  generalize struct _ j = a, struct _ j' = b
  rintro (⟨_ | ⟨h1, _ | ⟨_, _⟩⟩⟩ | _) <;> try exact .none
  exact optionRel_map (indifferent_opt_eq indifferent_string h1) fun _ _ h => by rw [h]

theorem indifferent_preauthorized (H : Hereditary P) : Indifferent P PreAuthorizedCodeFlow.de (· = ·) := by
  intro j j' h hp
  have hs := struct_alike H [str! "pre-authorized_code", str! "user_pin_required"] h hp
  unfold PreAuthorizedCodeFlow.de
  revert hs
  generalize struct _ j = a, struct _ j' = b
  rintro (⟨_ | ⟨h1, _ | ⟨h2, _ | ⟨_, _⟩⟩⟩⟩ | _) <;> try exact .none
  refine optionRel_bind (indifferent_req indifferent_string h1) ?_
  rintro _ _ rfl
  refine optionRel_bind (indifferent_opt_eq indifferent_bool h2) ?_
  rintro _ _ rfl
  exact .some rfl

theorem indifferent_grants (H : Hereditary P) : Indifferent P CredentialOfferGrants.de (· = ·) := by
  intro j j' h hp
  have hs := struct_alike H [str! "authorization_code",
    str! "urn:ietf:params:oauth:grant-type:pre-authorized_code"] h hp
  unfold CredentialOfferGrants.de
  revert hs
  generalize struct _ j = a, struct _ j' = b
  rintro (⟨_ | ⟨h1, _ | ⟨h2, _ | ⟨_, _⟩⟩⟩⟩ | _) <;> try exact .none
  refine optionRel_bind (indifferent_opt_eq (indifferent_authorized H) h1) ?_
  rintro _ _ rfl
  refine optionRel_bind (indifferent_opt_eq (indifferent_preauthorized H) h2) ?_
  rintro _ _ rfl
  exact .some rfl

/-- Offers. -/
theorem C142_offer : Indifferent UniqueNames CredentialOffer.de SameOffer := by
  intro j j' h hp
  have hs := struct_alike hereditary_unique [str! "credential_issuer", str! "credentials", str! "grants"] h hp
  unfold CredentialOffer.de
  revert hs
  generalize struct _ j = a, struct _ j' = b
  rintro (⟨_ | ⟨h1, _ | ⟨h2, _ | ⟨h3, _ | ⟨_, _⟩⟩⟩⟩⟩ | _) <;> try exact .none
  refine optionRel_bind (indifferent_req indifferent_string h1) ?_
  rintro _ _ rfl
  refine optionRel_bind (indifferent_req (indifferent_vec hereditary_unique indifferent_entry) h2) ?_
  intro _ _ s2
  refine optionRel_bind (indifferent_req (indifferent_grants hereditary_unique) h3) ?_
  rintro _ _ rfl
  exact .some ⟨rfl, s2, rfl⟩

/-- The token type. -/
theorem indifferent_type : Indifferent P AccessTokenType.de (· = ·) := by
  intro j j' h _
  have ha := h.alike
  rw [optionRel_eq]
  cases j with
  | arr xs =>
    cases j' with
    | arr ys => rfl
    | _ => exact absurd ha id
  | obj xs =>
    cases j' with
    | obj ys =>
      obtain ⟨mid, hm, hs⟩ := ha
      refine single_alike _ (fun kvs hk => ?_) hm hs
      unfold AccessTokenType.de
      split
      · rename_i heq; cases heq
      · rename_i heq; cases heq; exact absurd ⟨_, rfl⟩ hk
      · rfl
    | _ => exact absurd ha id
  | _ => cases ha; rfl

/-- Algorithms. -/
theorem indifferent_algorithm : Indifferent P ProofJwtAlgorithm.de (· = ·) := by
  intro j j' h _
  have ha := h.alike
  rw [optionRel_eq]
  cases j with
  | arr xs =>
    cases j' with
    | arr ys => rfl
    | _ => exact absurd ha id
  | obj xs =>
    cases j' with
    | obj ys =>
      obtain ⟨mid, hm, hs⟩ := ha
      refine single_alike _ (fun kvs hk => ?_) hm hs
      unfold ProofJwtAlgorithm.de
      split
      · rename_i heq; cases heq
      · rename_i heq; cases heq; exact absurd ⟨_, rfl⟩ hk
      · rfl
    | _ => exact absurd ha id
  | _ => cases ha; rfl

/-- Token responses. -/
theorem C142_token_response (H : Hereditary P) : Indifferent P AccessTokenSuccessResponse.de (· = ·) := by
  intro j j' h hp
  have hs := struct_alike H [str! "access_token", str! "token_type", str! "expires_in", str! "scope",
    str! "c_nonce", str! "c_nonce_expires_in", str! "authorization_pending", str! "interval"] h hp
  unfold AccessTokenSuccessResponse.de
  revert hs
  generalize struct _ j = a, struct _ j' = b
  rintro (⟨_ | ⟨h1, _ | ⟨h2, _ | ⟨h3, _ | ⟨h4, _ | ⟨h5, _ | ⟨h6, _ | ⟨h7, _ | ⟨h8, _ | ⟨_, _⟩⟩⟩⟩⟩⟩⟩⟩⟩⟩ | _) <;> try exact .none
  refine optionRel_bind (indifferent_req indifferent_string h1) ?_
  rintro _ _ rfl
  refine optionRel_bind (indifferent_req indifferent_type h2) ?_
  rintro _ _ rfl
  refine optionRel_bind (indifferent_opt_eq indifferent_u32 h3) ?_
  rintro _ _ rfl
  refine optionRel_bind (indifferent_opt_eq indifferent_string h4) ?_
  rintro _ _ rfl
  refine optionRel_bind (indifferent_opt_eq indifferent_string h5) ?_
  rintro _ _ rfl
  refine optionRel_bind (indifferent_opt_eq indifferent_u32 h6) ?_
  rintro _ _ rfl
  refine optionRel_bind (indifferent_opt_eq indifferent_bool h7) ?_
  rintro _ _ rfl
  refine optionRel_bind (indifferent_opt_eq indifferent_u32 h8) ?_
  rintro _ _ rfl
  exact .some rfl

theorem indifferent_pre_grant (H : Hereditary P) : Indifferent P GrantType.dePre (· = ·) := by
  intro j j' h hp
  have hs := struct_alike H [str! "pre_authorized_code", str! "user_pin"] h hp
  unfold GrantType.dePre
  revert hs
  generalize struct _ j = a, struct _ j' = b
  rintro (⟨_ | ⟨h1, _ | ⟨h2, _ | ⟨_, _⟩⟩⟩⟩ | _) <;> try exact .none
  refine optionRel_bind (indifferent_req indifferent_string h1) ?_
  rintro _ _ rfl
  refine optionRel_bind (indifferent_opt_eq indifferent_u64 h2) ?_
  rintro _ _ rfl
  exact .some rfl

/-- Token requests. -/
theorem C142_token_request (H : Hereditary P) : Indifferent P AccessTokenRequest.de (· = ·) := by
  have hu : Indifferent P GrantType.deUnit (· = ·) := by
    intro j j' h _
    have ha := h.alike
    rw [optionRel_eq]
    cases j with
    | arr xs =>
      cases j' with
      | arr ys => cases ha <;> rfl
      | _ => exact absurd ha id
    | obj xs =>
      cases j' with
      | obj ys => rfl
      | _ => exact absurd ha id
    | _ => cases ha; rfl
  have hg : Indifferent P GrantType.de (· = ·) := by
    intro j j' h hp
    have ht := tagged_alike H (str! "grant_type") h hp
    unfold GrantType.de
    revert ht
    generalize tagged _ j = a, tagged _ j' = b
    rintro (ht | _) <;> try exact .none
    rename_i a b
    obtain ⟨⟨ht, -⟩, hc, hpc⟩ := ht
    obtain ⟨t, c⟩ := a
    obtain ⟨t', c'⟩ := b
    simp only at ht hc hpc ⊢
    rw [variant_alike _ _ ht]
    split
    · exact hu c c' hc hpc
    · exact indifferent_pre_grant H c c' hc hpc
    · exact .none
  intro j j' h hp
  have hs := struct_alike H [str! "grant_type"] h hp
  unfold AccessTokenRequest.de
  revert hs
  generalize struct _ j = a, struct _ j' = b
  rintro (⟨_ | ⟨h1, _ | ⟨_, _⟩⟩⟩ | _) <;> try exact .none
  exact optionRel_map (indifferent_req hg h1) fun _ _ h => by rw [h]

theorem indifferent_proof (H : Hereditary P) : Indifferent P CredentialRequestProof.de (· = ·) := by
  intro j j' h hp
  have hs := struct_alike H [str! "proof_type", str! "jwt"] h hp
  unfold CredentialRequestProof.de
  revert hs
  generalize struct _ j = a, struct _ j' = b
  rintro (⟨_ | ⟨h1, _ | ⟨h2, _ | ⟨_, _⟩⟩⟩⟩ | _) <;> try exact .none
  refine optionRel_bind (indifferent_dflt indifferent_string _ h1) ?_
  rintro _ _ rfl
  refine optionRel_bind (indifferent_req indifferent_string h2) ?_
  rintro _ _ rfl
  exact .some rfl

/-- Credential requests. -/
theorem C142_request : Indifferent UniqueNames CredentialRequest.de SameRequest := by
  intro j j' h hp
  have hs := structFlat_alike hereditary_unique [str! "proof"] h hp
  unfold CredentialRequest.de
  revert hs
  generalize structFlat _ j = a, structFlat _ j' = b
  rintro (⟨hs, hr, hpr⟩ | _) <;> try exact .none
  rename_i a b
  obtain ⟨a, ra⟩ := a
  obtain ⟨b, rb⟩ := b
  simp only at hs hr hpr
  rcases hs with _ | ⟨h1, _ | ⟨_, _⟩⟩ <;> try exact .none
  refine optionRel_bind (indifferent_opt_eq (indifferent_proof hereditary_unique) h1) ?_
  rintro _ _ rfl
  refine optionRel_bind (C142_credential true _ _ hr hpr) ?_
  intro _ _ s2
  exact .some ⟨s2, rfl⟩

theorem indifferent_issued : Indifferent UniqueNames CredentialFormatProfileOrEncoded.de SameIssued := by
  intro j j' h hp
  have ha := h.alike
  cases j with
  | arr xs =>
    cases j' with
    | arr ys => exact .none
    | _ => exact absurd ha id
  | obj xs =>
    cases j' with
    | obj ys =>
      obtain ⟨mid, hm, hs⟩ := ha
      have hl : xs.length = ys.length := hm.length_eq.trans hs.length_eq
      match xs, ys, hl with
      | [], [], _ => exact .none
      | [(k, v)], [(k', v')], _ =>
        rw [← List.singleton_perm.1 hm] at hs
        cases hs with
        | cons hs _ =>
          obtain ⟨rfl, hs⟩ := hs
          have hv : UniqueNames v := ((uniqueNames_obj _).1 hp).2 (k, v) (by simp)
          simp only [CredentialFormatProfileOrEncoded.de]
          split
          · exact optionRel_map (C142_credential false _ _ hs hv) fun _ _ h => h
          · split
            · exact optionRel_map (indifferent_string _ _ hs hv) fun _ _ h => h
            · exact .none
      | _ :: _ :: _, _ :: _ :: _, _ => exact .none
    | _ => exact absurd ha id
  | _ => cases ha; exact .none

/-- Credential responses. -/
theorem C142_response : Indifferent UniqueNames CredentialSuccessResponse.de SameResponse := by
  intro j j' h hp
  have hs := struct_alike hereditary_unique [str! "format", str! "credential", str! "acceptance_token",
    str! "c_nonce", str! "c_nonce_expires_in"] h hp
  unfold CredentialSuccessResponse.de
  revert hs
  generalize struct _ j = a, struct _ j' = b
  rintro (⟨_ | ⟨h1, _ | ⟨h2, _ | ⟨h3, _ | ⟨h4, _ | ⟨h5, _ | ⟨_, _⟩⟩⟩⟩⟩⟩⟩ | _) <;> try exact .none
  refine optionRel_bind (indifferent_req indifferent_string h1) ?_
  rintro _ _ rfl
  refine optionRel_bind (indifferent_opt indifferent_issued h2) ?_
  intro _ _ s2
  refine optionRel_bind (indifferent_opt_eq indifferent_string h3) ?_
  rintro _ _ rfl
  refine optionRel_bind (indifferent_opt_eq indifferent_string h4) ?_
  rintro _ _ rfl
  refine optionRel_bind (indifferent_opt_eq indifferent_u32 h5) ?_
  rintro _ _ rfl
  exact .some ⟨rfl, s2, rfl, rfl, rfl⟩

theorem indifferent_logo (H : Hereditary P) : Indifferent P DisplayLogo.de (· = ·) := by
  intro j j' h hp
  have hs := struct_alike H [str! "url", str! "alt_text"] h hp
  unfold DisplayLogo.de
  revert hs
  generalize struct _ j = a, struct _ j' = b
  rintro (⟨_ | ⟨h1, _ | ⟨h2, _ | ⟨_, _⟩⟩⟩⟩ | _) <;> try exact .none
  refine optionRel_bind (indifferent_opt_eq indifferent_string h1) ?_
  rintro _ _ rfl
  refine optionRel_bind (indifferent_opt_eq indifferent_string h2) ?_
  rintro _ _ rfl
  exact .some rfl

theorem indifferent_properties (H : Hereditary P) : Indifferent P DisplayProperties.de (· = ·) := by
  intro j j' h hp
  have hs := struct_alike H [str! "name", str! "locale", str! "logo", str! "description",
    str! "background_color", str! "text_color"] h hp
  unfold DisplayProperties.de
  revert hs
  generalize struct _ j = a, struct _ j' = b
  rintro (⟨_ | ⟨h1, _ | ⟨h2, _ | ⟨h3, _ | ⟨h4, _ | ⟨h5, _ | ⟨h6, _ | ⟨_, _⟩⟩⟩⟩⟩⟩⟩⟩ | _) <;> try exact .none
  refine optionRel_bind (indifferent_req indifferent_string h1) ?_
  rintro _ _ rfl
  refine optionRel_bind (indifferent_opt_eq indifferent_string h2) ?_
  rintro _ _ rfl
  refine optionRel_bind (indifferent_opt_eq (indifferent_logo H) h3) ?_
  rintro _ _ rfl
  refine optionRel_bind (indifferent_opt_eq indifferent_string h4) ?_
  rintro _ _ rfl
  refine optionRel_bind (indifferent_opt_eq indifferent_string h5) ?_
  rintro _ _ rfl
  refine optionRel_bind (indifferent_opt_eq indifferent_string h6) ?_
  rintro _ _ rfl
  exact .some rfl

theorem indifferent_supported : Indifferent UniqueNames CredentialSupported.de SameSupported := by
  intro j j' h hp
  have hs := structFlat_alike hereditary_unique [str! "id",
    str! "cryptographic_binding_mehtods_supported", str! "cryptographic_suites_supported", str! "display"] h hp
  unfold CredentialSupported.de
  revert hs
  generalize structFlat _ j = a, structFlat _ j' = b
  rintro (⟨hs, hr, hpr⟩ | _) <;> try exact .none
  rename_i a b
  obtain ⟨a, ra⟩ := a
  obtain ⟨b, rb⟩ := b
  simp only at hs hr hpr
  rcases hs with _ | ⟨h1, _ | ⟨h2, _ | ⟨h3, _ | ⟨h4, _ | ⟨_, _⟩⟩⟩⟩⟩ <;> try exact .none
  refine optionRel_bind (indifferent_opt_eq indifferent_string h1) ?_
  rintro _ _ rfl
  refine optionRel_bind (indifferent_opt_eq (indifferent_strings hereditary_unique) h2) ?_
  rintro _ _ rfl
  refine optionRel_bind (indifferent_opt_eq (indifferent_strings hereditary_unique) h3) ?_
  rintro _ _ rfl
  refine optionRel_bind (indifferent_opt_eq (indifferent_vec_eq hereditary_unique (indifferent_properties hereditary_unique)) h4) ?_
  rintro _ _ rfl
  refine optionRel_bind (C142_credential true _ _ hr hpr) ?_
  intro _ _ s5
  exact .some ⟨s5, rfl, rfl, rfl, rfl⟩

/-- Issuer metadata. -/
theorem C142_metadata : Indifferent UniqueNames CredentialIssuerMetadata.de SameIssuerMetadata := by
  intro j j' h hp
  have hs := structFlat_alike hereditary_unique [str! "credential_issuer", str! "authorization_server",
    str! "credential_endpoint", str! "batch_credential_endpoint", str! "credentials_supported"] h hp
  unfold CredentialIssuerMetadata.de
  revert hs
  generalize structFlat _ j = a, structFlat _ j' = b
  rintro (⟨hs, hr, hpr⟩ | _) <;> try exact .none
  rename_i a b
  obtain ⟨a, ra⟩ := a
  obtain ⟨b, rb⟩ := b
  simp only at hs hr hpr
  rcases hs with _ | ⟨h1, _ | ⟨h2, _ | ⟨h3, _ | ⟨h4, _ | ⟨h5, _ | ⟨_, _⟩⟩⟩⟩⟩⟩ <;> try exact .none
  refine optionRel_bind (indifferent_req indifferent_string h1) ?_
  rintro _ _ rfl
  refine optionRel_bind (indifferent_opt_eq indifferent_string h2) ?_
  rintro _ _ rfl
  refine optionRel_bind (indifferent_req indifferent_string h3) ?_
  rintro _ _ rfl
  refine optionRel_bind (indifferent_opt_eq indifferent_string h4) ?_
  rintro _ _ rfl
  refine optionRel_bind (indifferent_req (indifferent_vec hereditary_unique indifferent_supported) h5) ?_
  intro _ _ s5
  refine optionRel_bind (entries_alike indifferent_value hr hpr) ?_
  intro _ _ s6
  exact .some ⟨rfl, rfl, rfl, rfl, s5, .some s6⟩

/-- Bodies of proofs. -/
theorem C142_body (x : Ext) (H : Hereditary P) : Indifferent P (ProofJwtBody.de x) (· = ·) := by
  intro j j' h hp
  have hs := struct_alike H [str! "iss", str! "aud", str! "sub", str! "iat", str! "nonce", str! "nbf",
    str! "exp"] h hp
  unfold ProofJwtBody.de
  revert hs
  generalize struct _ j = a, struct _ j' = b
  rintro (⟨_ | ⟨h1, _ | ⟨h2, _ | ⟨h3, _ | ⟨h4, _ | ⟨h5, _ | ⟨h6, _ | ⟨h7, _ | ⟨_, _⟩⟩⟩⟩⟩⟩⟩⟩⟩ | _) <;> try exact .none
  refine optionRel_bind (indifferent_opt_eq indifferent_string h1) ?_
  rintro _ _ rfl
  refine optionRel_bind (indifferent_req indifferent_string h2) ?_
  rintro _ _ rfl
  refine optionRel_bind (indifferent_opt_eq indifferent_string h3) ?_
  rintro _ _ rfl
  refine optionRel_bind (indifferent_req (indifferent_time x) h4) ?_
  rintro _ _ rfl
  refine optionRel_bind (indifferent_req indifferent_string h5) ?_
  rintro _ _ rfl
  refine optionRel_bind (indifferent_opt_eq (indifferent_time x) h6) ?_
  rintro _ _ rfl
  refine optionRel_bind (indifferent_opt_eq (indifferent_time x) h7) ?_
  rintro _ _ rfl
  exact .some rfl

/-- Stored nonces. -/
theorem C142_nonce_options (x : Ext) (H : Hereditary P) : Indifferent P (CNonceOptions.de x) (· = ·) := by
  intro j j' h hp
  have hs := struct_alike H [str! "c_nonce_expires_in", str! "expected_c_nonce", str! "c_nonce_created_at"] h hp
  unfold CNonceOptions.de
  revert hs
  generalize struct _ j = a, struct _ j' = b
  rintro (⟨_ | ⟨h1, _ | ⟨h2, _ | ⟨h3, _ | ⟨_, _⟩⟩⟩⟩⟩ | _) <;> try exact .none
  refine optionRel_bind (indifferent_req indifferent_u32 h1) ?_
  rintro _ _ rfl
  refine optionRel_bind (indifferent_req indifferent_string h2) ?_
  rintro _ _ rfl
  refine optionRel_bind (indifferent_req (indifferent_time x) h3) ?_
  rintro _ _ rfl
  exact .some rfl

/-- Options of the credential request. -/
theorem C142_request_options (x : Ext) (H : Hereditary P) :
    Indifferent P (EvaluateCredentialRequestOptions.de x) (· = ·) := by
  intro j j' h hp
  have hs := struct_alike H [str! "c_nonce", str! "client_id"] h hp
  unfold EvaluateCredentialRequestOptions.de
  revert hs
  generalize struct _ j = a, struct _ j' = b
  rintro (⟨_ | ⟨h1, _ | ⟨h2, _ | ⟨_, _⟩⟩⟩⟩ | _) <;> try exact .none
  refine optionRel_bind (indifferent_opt_eq (C142_nonce_options x H) h1) ?_
  rintro _ _ rfl
  refine optionRel_bind (indifferent_opt_eq indifferent_string h2) ?_
  rintro _ _ rfl
  exact .some rfl

/-- Nonces. -/
theorem C142_nonce (H : Hereditary P) : Indifferent P CNonce.de (· = ·) := by
  intro j j' h hp
  have hs := struct_alike H [str! "c_nonce", str! "c_nonce_expires_in"] h hp
  unfold CNonce.de
  revert hs
  generalize struct _ j = a, struct _ j' = b
  rintro (⟨_ | ⟨h1, _ | ⟨h2, _ | ⟨_, _⟩⟩⟩⟩ | _) <;> try exact .none
  refine optionRel_bind (indifferent_req indifferent_string h1) ?_
  rintro _ _ rfl
  refine optionRel_bind (indifferent_opt_eq indifferent_u32 h2) ?_
  rintro _ _ rfl
  exact .some rfl

/-- Options of the token request. -/
theorem C142_token_options (H : Hereditary P) : Indifferent P EvaluateAccessTokenRequestOptions.de (· = ·) := by
  intro j j' h hp
  have hs := struct_alike H [str! "expected_user_pin"] h hp
  unfold EvaluateAccessTokenRequestOptions.de
  revert hs
  generalize struct _ j = a, struct _ j' = b
  rintro (⟨_ | ⟨h1, _ | ⟨_, _⟩⟩⟩ | _) <;> try exact .none
  exact optionRel_map (indifferent_opt_eq indifferent_u64 h1) fun _ _ h => by rw [h]

/-! ### Headers of proofs -/

/-- The members a header is asked for besides `typ` and `alg`. -/
def keyNames : List Str := [str! "kid", str! "jwk", str! "x5c"]

theorem deFlat_keyNames (kvs : List (Str × Json)) :
    ProofJwtAdditionalHeader.deFlat kvs =
      ProofJwtAdditionalHeader.deFlat (kvs.filter fun kv => decide (kv.1 ∈ keyNames)) := by
  induction kvs with
  | nil => rfl
  | cons kv kvs ih =>
    obtain ⟨k, v⟩ := kv
    by_cases hk : k ∈ keyNames
    · rw [List.filter_cons_of_pos (by simpa using hk)]
      simp only [keyNames, List.mem_cons, List.not_mem_nil, or_false] at hk
      rcases hk with rfl | rfl | rfl <;> rfl
    · rw [List.filter_cons_of_neg (by simpa using hk), ← ih]
      simp only [keyNames, List.mem_cons, List.not_mem_nil, or_false, not_or] at hk
      simp only [ProofJwtAdditionalHeader.deFlat, if_neg hk.1, if_neg hk.2.1, if_neg hk.2.2]

theorem deFlat_alike {kvs mid kvs' : List (Str × Json)} (h : kvs.Perm mid) (h' : SameMembers mid kvs')
    (hone : (kvs.filter fun kv => decide (kv.1 ∈ keyNames)).length ≤ 1) :
    ProofJwtAdditionalHeader.deFlat kvs = ProofJwtAdditionalHeader.deFlat kvs' := by
  rw [deFlat_keyNames kvs, deFlat_keyNames kvs']
  have hf := h.filter fun kv => decide (kv.1 ∈ keyNames)
  have hs := sameMembers_filter h' fun n => decide (n ∈ keyNames)
  revert hone hf hs
  generalize kvs.filter _ = a, mid.filter _ = b, kvs'.filter _ = c
  intro hone hf hs
  match a, hone with
  | [], _ =>
    rw [List.nil_perm.1 hf] at hs
    cases hs
    rfl
  | [(k, v)], _ =>
    rw [← List.singleton_perm.1 hf] at hs
    rcases hs with _ | ⟨h1, _ | _⟩
    rename_i b
    obtain ⟨k', v'⟩ := b
    obtain ⟨rfl, h1⟩ := h1
    have e : Serde.string v = Serde.string v' := optionRel_eq_eq (indifferent_string (P := fun _ => True) v v' h1 trivial)
    simp only [ProofJwtAdditionalHeader.deFlat, e]

/-- **Claim C142**, in full: the order of the members means nothing, for headers of proofs either. -/
def C142_statement : Prop :=
  ∀ j j' : Json, UniqueNames j → Reordered j j' → ProofJwtHeader.de j = ProofJwtHeader.de j'

/-- Headers, as long as at most one of `kid`, `jwk` and `x5c` is named. **Missing:** headers with more than one
of them (`C142_refuted`). -/
theorem C142_header_partial {kvs : List (Str × Json)} {j' : Json}
    (hone : (kvs.filter fun kv => decide (kv.1 ∈ keyNames)).length ≤ 1) (h : Reordered (.obj kvs) j') :
    ProofJwtHeader.de (.obj kvs) = ProofJwtHeader.de j' := by
  have hs := structFlat_alike hereditary_true [str! "typ", str! "alg"] h trivial
  have ha := h.alike
  cases j' with
  | obj ys =>
    obtain ⟨mid, hm, hm'⟩ := ha
    have hd : ProofJwtAdditionalHeader.deFlat (kvs.filter fun kv => decide (kv.1 ∉ [str! "typ", str! "alg"])) =
        ProofJwtAdditionalHeader.deFlat (ys.filter fun kv => decide (kv.1 ∉ [str! "typ", str! "alg"])) := by
      refine deFlat_alike (hm.filter _) (sameMembers_filter hm' fun n => decide (n ∉ [str! "typ", str! "alg"])) ?_
      rw [List.filter_filter]
      refine le_trans (List.Sublist.length_le ?_) hone
      refine List.monotone_filter_right _ ?_
      intro kv
      simp only [Bool.and_eq_true]
      exact fun h => h.1
    rw [← optionRel_eq]
    unfold ProofJwtHeader.de
    simp only [structFlat] at hs ⊢
    revert hs
    generalize fields _ kvs = a, fields _ ys = b
    intro hs
    cases a with
    | none => cases b with
      | none => exact .none
      | some b => cases hs
    | some a => cases b with
      | none => cases hs
      | some b =>
        simp only [Option.map_some] at hs ⊢
        rcases hs with ⟨hs, -, -⟩
        simp only at hs
        rcases hs with _ | ⟨h1, _ | ⟨h2, _ | ⟨_, _⟩⟩⟩ <;> try exact .none
        refine optionRel_bind (indifferent_req indifferent_string h1) ?_
        rintro _ _ rfl
        refine optionRel_bind (indifferent_req indifferent_algorithm h2) ?_
        rintro _ _ rfl
        exact .some (by rw [hd])
  | _ => exact absurd ha id

/-- A header with both `kid` and `jwk`, in either order: the first one is the key. -/
theorem C142_header_first (typ k w : Str) :
    (ProofJwtHeader.de (.obj [(str! "typ", .str typ), (str! "alg", .str (str! "ES256")), (str! "kid", .str k),
      (str! "jwk", .str w)])).map (·.additionalHeader) = some (some (.keyId k)) ∧
    (ProofJwtHeader.de (.obj [(str! "typ", .str typ), (str! "alg", .str (str! "ES256")), (str! "jwk", .str w),
      (str! "kid", .str k)])).map (·.additionalHeader) = some (some (.jwk w)) :=
  ⟨rfl, rfl⟩

/-- **The code violates C142**: swapping `kid` and `jwk` gives another header. -/
theorem C142_refuted : ¬ C142_statement := by
  intro h
  have h1 := C142_header_first [] [] []
  have h2 := h (.obj [(str! "typ", .str []), (str! "alg", .str (str! "ES256")), (str! "kid", .str []),
      (str! "jwk", .str [])]) (.obj [(str! "typ", .str []), (str! "alg", .str (str! "ES256")),
      (str! "jwk", .str []), (str! "kid", .str [])]) (by
        rw [uniqueNames_obj]
        refine ⟨by decide, ?_⟩
        intro kv hkv
        simp only [List.mem_cons, List.not_mem_nil, or_false] at hkv
        rcases hkv with rfl | rfl | rfl | rfl <;> simp [uniqueNames_str])
      (.members (.cons _ (.cons _ (.swap _ _ _))))
  rw [h2, h1.2] at h1
  exact absurd h1.1 (by decide)

/-! ### Cases -/

namespace Ex

/-- A credential with a map of two claims, one of them with two members of its own … -/
def orderedCredential : Json :=
  .obj [(str! "format", .str (str! "mso_mdoc")), (str! "doctype", .str (str! "d")),
    (str! "claims", .obj [(str! "a", .obj [(str! "mandatory", .bool true), (str! "valueType", .str (str! "t"))]),
      (str! "b", .obj [])])]

/-- … and the same with the members of all three objects in another order. -/
def reorderedCredential : Json :=
  .obj [(str! "claims", .obj [(str! "b", .obj []),
      (str! "a", .obj [(str! "valueType", .str (str! "t")), (str! "mandatory", .bool true)])]),
    (str! "doctype", .str (str! "d")), (str! "format", .str (str! "mso_mdoc"))]

theorem reordered_credential : Reordered orderedCredential reorderedCredential := by
  refine .trans (.value [(str! "format", .str (str! "mso_mdoc")), (str! "doctype", .str (str! "d"))] []
    (str! "claims") (.trans (.value [] [(str! "b", .obj [])] (str! "a") (.members (.swap _ _ _)))
      (.members (.swap _ _ _)))) (.members ?_)
  exact List.Perm.trans (List.Perm.swap _ _ _) (List.Perm.trans (.cons _ (.swap _ _ _)) (.swap _ _ _))

theorem ordered_unique : UniqueNames orderedCredential := by
  simp [orderedCredential, UniqueNames, UniqueNamesMembers]

/-- Both are read, and the maps differ in the order of their entries only. -/
example : ∃ m m', CredentialFormatProfile.de true orderedCredential = some (.msoMdoc (str! "d") (some m) none) ∧
    CredentialFormatProfile.de true reorderedCredential = some (.msoMdoc (str! "d") (some m') none) ∧
    SameMap m m' ∧ m.length = 2 := by
  have h := C142_credential true _ _ reordered_credential ordered_unique
  have h1 : (CredentialFormatProfile.de true orderedCredential).isSome := by decide +kernel
  refine ⟨[(str! "a", ⟨some true, some (str! "t"), none⟩), (str! "b", ⟨none, none, none⟩)],
    [(str! "b", ⟨none, none, none⟩), (str! "a", ⟨some true, some (str! "t"), none⟩)], ?_, ?_, .swap _ _ _, rfl⟩ <;>
  decide +kernel

/-- A header with one key, in two orders. -/
example : ProofJwtHeader.de (.obj [(str! "typ", .str (str! "t")), (str! "alg", .str (str! "ES256")),
      (str! "kid", .str (str! "k"))]) = ProofJwtHeader.de (.obj [(str! "typ", .str (str! "t")),
      (str! "kid", .str (str! "k")), (str! "alg", .str (str! "ES256"))]) ∧
    ProofJwtHeader.de (.obj [(str! "typ", .str (str! "t")), (str! "alg", .str (str! "ES256")),
      (str! "kid", .str (str! "k"))]) = some ⟨str! "t", .ES256, some (.keyId (str! "k"))⟩ :=
  ⟨C142_header_partial (by decide) (.members (.cons _ (.swap _ _ _))), by decide +kernel⟩

/-- Uniqueness is needed for the maps: the last of two entries of one name wins. -/
example : CredentialFormatProfile.de true (.obj [(str! "format", .str (str! "mso_mdoc")),
      (str! "doctype", .str (str! "d")), (str! "claims", .obj [(str! "a", .obj [(str! "mandatory", .bool true)]),
        (str! "a", .obj [])])]) = some (.msoMdoc (str! "d") (some [(str! "a", ⟨none, none, none⟩)]) none) ∧
    CredentialFormatProfile.de true (.obj [(str! "format", .str (str! "mso_mdoc")),
      (str! "doctype", .str (str! "d")), (str! "claims", .obj [(str! "a", .obj []),
        (str! "a", .obj [(str! "mandatory", .bool true)])])]) =
      some (.msoMdoc (str! "d") (some [(str! "a", ⟨some true, none, none⟩)]) none) := by
  constructor <;> decide +kernel

end Ex

end Oid4vci
