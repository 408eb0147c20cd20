import Verif.Lemmas.RoundTrip

/-! Plain numbers and nesting depth of serialised values. -/

namespace Oid4vci

open Serde Spec

/-- Plain numbers only and at most `n` levels of nesting. -/
def Fits (n : Nat) (j : Json) : Prop := PlainNumbers j ∧ depth j ≤ n

theorem plainList_iff (xs : List Json) : PlainNumbersList xs ↔ ∀ x ∈ xs, PlainNumbers x := by
  induction xs with
  | nil => simp [PlainNumbersList]
  | cons x xs ih => simp [PlainNumbersList, ih]

theorem plainMembers_iff (kvs : List (Str × Json)) :
    PlainNumbersMembers kvs ↔ ∀ p ∈ kvs, PlainNumbers p.2 := by
  induction kvs with
  | nil => simp [PlainNumbersMembers]
  | cons p kvs ih =>
    obtain ⟨k, v⟩ := p
    simp only [PlainNumbersMembers, ih, List.mem_cons, forall_eq_or_imp]

theorem depthList_iff (n : Nat) (xs : List Json) : depthList xs ≤ n ↔ ∀ x ∈ xs, depth x ≤ n := by
  induction xs with
  | nil => simp [depthList]
  | cons x xs ih => simp [depthList, ih]

theorem depthMembers_iff (n : Nat) (kvs : List (Str × Json)) :
    depthMembers kvs ≤ n ↔ ∀ p ∈ kvs, depth p.2 ≤ n := by
  induction kvs with
  | nil => simp [depthMembers]
  | cons p kvs ih =>
    obtain ⟨k, v⟩ := p
    simp only [depthMembers, Nat.max_le, ih, List.mem_cons, forall_eq_or_imp]

theorem Fits.mono {n m : Nat} {j : Json} (h : Fits n j) (hnm : n ≤ m) : Fits m j :=
  ⟨h.1, h.2.trans hnm⟩

theorem fits_obj {n : Nat} {kvs : List (Str × Json)} (h : ∀ p ∈ kvs, Fits n p.2) :
    Fits (n + 1) (.obj kvs) := by
  refine ⟨?_, ?_⟩
  · rw [PlainNumbers, plainMembers_iff]; exact fun p hp => (h p hp).1
  · rw [depth, Nat.add_le_add_iff_right, depthMembers_iff]; exact fun p hp => (h p hp).2

theorem fits_arr {n : Nat} {xs : List Json} (h : ∀ x ∈ xs, Fits n x) : Fits (n + 1) (.arr xs) := by
  refine ⟨?_, ?_⟩
  · rw [PlainNumbers, plainList_iff]; exact fun p hp => (h p hp).1
  · rw [depth, Nat.add_le_add_iff_right, depthList_iff]; exact fun p hp => (h p hp).2

theorem fits_str (n : Nat) (s : Str) : Fits n (.str s) := by simp [Fits, PlainNumbers, depth]
theorem fits_null (n : Nat) : Fits n .null := by simp [Fits, PlainNumbers, depth]
theorem fits_bool (n : Nat) (b : Bool) : Fits n (.bool b) := by simp [Fits, PlainNumbers, depth]
theorem fits_u32 (n : Nat) (u : UInt32) : Fits n (serU32 u) := by
  have := u.toNat_lt
  simp [Fits, PlainNumbers, depth, serU32]; omega
theorem fits_u64 (n : Nat) (u : UInt64) : Fits n (serU64 u) := by
  have := u.toNat_lt
  simp [Fits, PlainNumbers, depth, serU64]; omega

theorem fits_serOpt {α : Type} {n : Nat} {f : α → Json} (o : Option α) (h : ∀ a ∈ o, Fits n (f a)) :
    Fits n (serOpt f o) := by
  cases o with
  | none => exact fits_null n
  | some a => exact h a rfl

theorem fits_serVec {α : Type} {n : Nat} {f : α → Json} (xs : List α) (h : ∀ a ∈ xs, Fits n (f a)) :
    Fits (n + 1) (serVec f xs) := by
  refine fits_arr fun x hx => ?_
  obtain ⟨a, ha, rfl⟩ := List.mem_map.1 hx
  exact h a ha

theorem fits_strs (n : Nat) (xs : List Str) : Fits (n + 1) (serVec .str xs) :=
  fits_serVec xs fun _ _ => fits_str _ _

theorem fits_serMap {α : Type} {n : Nat} {f : α → Json} (m : HMap α) (h : ∀ p ∈ m, Fits n (f p.2)) :
    Fits (n + 1) (serMap f m) := by
  refine fits_obj fun x hx => ?_
  obtain ⟨a, ha, rfl⟩ := List.mem_map.1 hx
  exact h a ha

theorem fits_skipNone {α : Type} {n : Nat} {k : Str} {f : α → Json} (o : Option α)
    (h : ∀ a ∈ o, Fits n (f a)) : ∀ p ∈ skipNone k f o, Fits n p.2 := by
  intro p hp
  cases o with
  | none => simp [skipNone] at hp
  | some a => simp [skipNone] at hp; rw [hp]; exact h a rfl

theorem forall_append {α : Type} {P : α → Prop} {xs ys : List α} (hx : ∀ a ∈ xs, P a)
    (hy : ∀ a ∈ ys, P a) : ∀ a ∈ xs ++ ys, P a := by
  intro a ha
  rcases List.mem_append.1 ha with h | h
  · exact hx a h
  · exact hy a h

theorem forall_cons {α : Type} {P : α → Prop} {x : α} {ys : List α} (hx : P x)
    (hy : ∀ a ∈ ys, P a) : ∀ a ∈ x :: ys, P a := by
  intro a ha
  rcases List.mem_cons.1 ha with h | h
  · rw [h]; exact hx
  · exact hy a h

theorem forall_nil {α : Type} {P : α → Prop} : ∀ a ∈ ([] : List α), P a := by simp

theorem fits_subjectDisplay (n : Nat) (d : CredentialSubjectDisplay) : Fits (n + 1) d.ser :=
  fits_obj (forall_append (fits_skipNone _ fun _ _ => fits_str _ _)
    (fits_skipNone _ fun _ _ => fits_str _ _))

theorem fits_subject (n : Nat) (c : CredentialSubject) : Fits (n + 3) c.ser :=
  fits_obj (forall_append (forall_append (fits_skipNone _ fun _ _ => fits_bool _ _)
    (fits_skipNone _ fun _ _ => fits_str _ _))
    (fits_skipNone _ fun _ _ => fits_serVec _ fun _ _ => fits_subjectDisplay n _))

theorem fits_context {n : Nat} (c : LinkedDataContext) (h : GoodContext n c) :
    Fits (n + 1) c.ser := by
  cases c with
  | string s => exact fits_str _ _
  | map m => exact fits_serMap m fun p hp => ⟨(h.2 p hp).2.1, (h.2 p hp).2.2⟩

theorem fits_subjects (n : Nat) (o : Option (HMap CredentialSubject)) (order : Option (List Str))
    (k k' : Str) : ∀ p ∈ skipNone k (serMap CredentialSubject.ser) o
      ++ skipNone k' (serVec .str) order, Fits (n + 4) p.2 :=
  forall_append (fits_skipNone _ fun _ _ => fits_serMap _ fun _ _ => fits_subject n _)
    (fits_skipNone _ fun _ _ => fits_strs _ _)

theorem fits_credential {n : Nat} (c : CredentialFormatProfile) (h : GoodCredential n c) :
    Fits (max 5 (n + 3)) c.ser := by
  obtain ⟨k, hk⟩ : ∃ k, max 5 (n + 3) = k + 4 + 1 := ⟨max 5 (n + 3) - 5, by omega⟩
  rw [hk]
  cases c with
  | jwtVcJson types cs order =>
    exact fits_obj (forall_cons (fits_str _ _) (forall_cons (fits_strs _ _) (fits_subjects k _ _ _ _)))
  | jwtVcJsonLd types cs order =>
    exact fits_obj (forall_cons (fits_str _ _) (forall_cons (fits_strs _ _) (fits_subjects k _ _ _ _)))
  | msoMdoc d cs order =>
    exact fits_obj (forall_cons (fits_str _ _) (forall_cons (fits_str _ _) (fits_subjects k _ _ _ _)))
  | ldpVc ctx types cs order =>
    refine fits_obj (forall_cons (fits_str _ _) (forall_cons ?_ (forall_cons (fits_strs _ _)
      (fits_subjects k _ _ _ _))))
    exact fits_serVec ctx fun c hc => (fits_context c (h.1 c hc)).mono (by omega)

theorem fits_offer {n : Nat} (o : CredentialOffer) (h : ∀ c ∈ o.credentials, GoodEntry n c) :
    Fits (max 7 (n + 5)) o.ser := by
  obtain ⟨k, hk⟩ : ∃ k, max 7 (n + 5) = k + 1 + 1 := ⟨max 7 (n + 5) - 2, by omega⟩
  have hge : max 5 (n + 3) = k := by omega
  have h5 : 5 ≤ k := by omega
  rw [hk]
  refine fits_obj (forall_cons (fits_str _ _) (forall_cons ?_ (forall_cons ?_ forall_nil)))
  · refine fits_serVec _ fun c hc => ?_
    have := h c hc
    cases c with
    | credentialId s => exact fits_str _ _
    | credential c => rw [← hge]; exact fits_credential c this
  · obtain ⟨l, rfl⟩ : ∃ l, k = l + 1 := ⟨k - 1, by omega⟩
    exact fits_obj (forall_append
      (fits_skipNone _ fun _ _ => fits_obj (forall_cons (fits_serOpt _ fun _ _ => fits_str _ _)
        forall_nil))
      (fits_skipNone _ fun _ _ => fits_obj (forall_cons (fits_str _ _)
        (fits_skipNone _ fun _ _ => fits_bool _ _))))

theorem fits_header (n : Nat) (h : ProofJwtHeader) : Fits (n + 1) h.ser := by
  refine fits_obj (forall_append (forall_cons (fits_str _ _) (forall_cons (fits_str _ _)
    forall_nil)) ?_)
  cases h.additionalHeader with
  | none => exact forall_nil
  | some a => cases a <;> exact forall_cons (fits_str _ _) forall_nil

theorem fits_body (x : Ext) (n : Nat) (b : ProofJwtBody) : Fits (n + 1) (b.ser x) :=
  fits_obj (forall_append (forall_append (forall_append (fits_skipNone _ fun _ _ => fits_str _ _)
    (forall_cons (fits_str _ _) (forall_cons (fits_serOpt _ fun _ _ => fits_str _ _)
    (forall_cons (fits_str _ _) (forall_cons (fits_str _ _) forall_nil)))))
    (fits_skipNone _ fun _ _ => fits_str _ _)) (fits_skipNone _ fun _ _ => fits_str _ _))

theorem fits_grant (n : Nat) (g : GrantType) : Fits (n + 1) g.ser := by
  cases g with
  | authorizedCodeFlow => exact fits_obj (forall_cons (fits_str _ _) forall_nil)
  | preAuthorizedCodeFlow code pin =>
    exact fits_obj (forall_cons (fits_str _ _) (forall_cons (fits_str _ _)
      (forall_cons (fits_serOpt _ fun _ _ => fits_u64 _ _) forall_nil)))

theorem fits_tokenRequest (n : Nat) (r : AccessTokenRequest) : Fits (n + 2) r.ser :=
  fits_obj (forall_cons (fits_grant _ _) forall_nil)

theorem fits_tokenResponse (n : Nat) (r : AccessTokenSuccessResponse) : Fits (n + 1) r.ser := by
  refine fits_obj (forall_cons (fits_str _ _) (forall_cons ?_ (forall_cons ?_ (forall_cons ?_
    (forall_cons ?_ (forall_cons ?_ (forall_cons ?_ (forall_cons ?_ forall_nil))))))))
  · cases r.tokenType; exact fits_str _ _
  · exact fits_serOpt _ fun _ _ => fits_u32 _ _
  · exact fits_serOpt _ fun _ _ => fits_str _ _
  · exact fits_serOpt _ fun _ _ => fits_str _ _
  · exact fits_serOpt _ fun _ _ => fits_u32 _ _
  · exact fits_serOpt _ fun _ _ => fits_bool _ _
  · exact fits_serOpt _ fun _ _ => fits_u32 _ _

theorem fits_proof (n : Nat) (p : CredentialRequestProof) : Fits (n + 1) p.ser :=
  fits_obj (forall_cons (fits_str _ _) (forall_cons (fits_str _ _) forall_nil))

theorem fits_members {n : Nat} (c : CredentialFormatProfile) (h : GoodCredential n c) :
    ∀ p ∈ c.members, Fits (max 4 (n + 2)) p.2 := by
  have hf := fits_credential c h
  have hm : c.ser = .obj c.members := by cases c <;> rfl
  rw [hm] at hf
  obtain ⟨h1, h2⟩ := hf
  rw [PlainNumbers, plainMembers_iff] at h1
  rw [depth, show max 5 (n + 3) = max 4 (n + 2) + 1 by omega, Nat.add_le_add_iff_right,
    depthMembers_iff] at h2
  exact fun p hp => ⟨h1 p hp, h2 p hp⟩

theorem fits_request {n : Nat} (r : CredentialRequest) (h : GoodCredential n r.format) :
    Fits (max 5 (n + 3)) r.ser := by
  rw [show max 5 (n + 3) = max 4 (n + 2) + 1 by omega]
  refine fits_obj (forall_append (fits_members _ h) (forall_cons ?_ forall_nil))
  exact (fits_serOpt _ fun _ _ => fits_proof 0 _).mono (by omega)

theorem fits_successResponse {n : Nat} (r : CredentialSuccessResponse)
    (h : ∀ f, r.credential = some (.credentialFormatProfile f) → GoodCredential n f) :
    Fits (max 7 (n + 5)) r.ser := by
  obtain ⟨k, hk⟩ : ∃ k, max 7 (n + 5) = k + 1 + 1 := ⟨max 7 (n + 5) - 2, by omega⟩
  have hge : max 5 (n + 3) = k := by omega
  rw [hk]
  refine fits_obj (forall_cons (fits_str _ _) (forall_cons ?_ (forall_cons
    (fits_serOpt _ fun _ _ => fits_str _ _) (forall_cons (fits_serOpt _ fun _ _ => fits_str _ _)
    (forall_cons (fits_serOpt _ fun _ _ => fits_u32 _ _) forall_nil)))))
  refine fits_serOpt _ fun c hc => ?_
  cases c with
  | credentialFormatProfile f =>
    exact fits_obj (forall_cons (hge ▸ fits_credential f (h f hc)) forall_nil)
  | encoded s => exact fits_obj (forall_cons (fits_str _ _) forall_nil)

theorem fits_displayProperties (n : Nat) (d : DisplayProperties) : Fits (n + 2) d.ser :=
  fits_obj (forall_cons (fits_str _ _) (forall_cons (fits_serOpt _ fun _ _ => fits_str _ _)
    (forall_cons (fits_serOpt _ fun _ _ => fits_obj (forall_cons
      (fits_serOpt _ fun _ _ => fits_str _ _) (forall_cons (fits_serOpt _ fun _ _ => fits_str _ _)
      forall_nil)))
    (forall_cons (fits_serOpt _ fun _ _ => fits_str _ _)
    (forall_cons (fits_serOpt _ fun _ _ => fits_str _ _)
    (forall_cons (fits_serOpt _ fun _ _ => fits_str _ _) forall_nil))))))

theorem fits_supported {n : Nat} (c : CredentialSupported) (h : GoodCredential n c.format) :
    Fits (max 5 (n + 3)) c.ser := by
  obtain ⟨k, hk⟩ : ∃ k, max 5 (n + 3) = k + 3 + 1 + 1 := ⟨max 5 (n + 3) - 5, by omega⟩
  have hge : max 4 (n + 2) = k + 3 + 1 := by omega
  rw [hk]
  refine fits_obj (forall_append (hge ▸ fits_members _ h) (forall_cons
    (fits_serOpt _ fun _ _ => fits_str _ _) (forall_cons (fits_serOpt _ fun _ _ => fits_strs _ _)
    (forall_cons (fits_serOpt _ fun _ _ => fits_strs _ _) (forall_cons ?_ forall_nil)))))
  exact fits_serOpt _ fun _ _ => fits_serVec _ fun _ _ => fits_displayProperties _ _

theorem fits_metadata {n : Nat} (m : CredentialIssuerMetadata)
    (h : ∀ c ∈ m.credentialsSupported, GoodCredential n c.format)
    (ha : ∀ a ∈ m.additionalFields, ∀ p ∈ a, PlainNumbers p.2 ∧ depth p.2 ≤ n + 4) :
    Fits (max 7 (n + 5)) m.ser := by
  obtain ⟨k, hk⟩ : ∃ k, max 7 (n + 5) = k + 1 + 1 := ⟨max 7 (n + 5) - 2, by omega⟩
  have hge : max 5 (n + 3) = k := by omega
  rw [hk]
  refine fits_obj (forall_append (forall_cons (fits_str _ _) (forall_cons
    (fits_serOpt _ fun _ _ => fits_str _ _) (forall_cons (fits_str _ _) (forall_cons
    (fits_serOpt _ fun _ _ => fits_str _ _) (forall_cons ?_ forall_nil))))) ?_)
  · exact fits_serVec _ fun c hc => hge ▸ fits_supported c (h c hc)
  · cases hm : m.additionalFields with
    | none => exact forall_nil
    | some a =>
      intro p hp
      have := ha a hm p hp
      exact ⟨this.1, by omega⟩

/-! ### Whatever the contexts -/

theorem rustList_iff (xs : List Json) : RustNumbersList xs ↔ ∀ x ∈ xs, RustNumbers x := by
  induction xs with
  | nil => simp [RustNumbersList]
  | cons x xs ih => simp [RustNumbersList, ih]

theorem rustMembers_iff (kvs : List (Str × Json)) :
    RustNumbersMembers kvs ↔ ∀ p ∈ kvs, RustNumbers p.2 := by
  induction kvs with
  | nil => simp [RustNumbersMembers]
  | cons p kvs ih =>
    obtain ⟨k, v⟩ := p
    simp only [RustNumbersMembers, ih, List.mem_cons, forall_eq_or_imp]

theorem rust_obj {kvs : List (Str × Json)} (h : ∀ p ∈ kvs, RustNumbers p.2) : RustNumbers (.obj kvs) := by
  rw [RustNumbers, rustMembers_iff]; exact h

theorem rust_serVec {α : Type} {f : α → Json} (xs : List α) (h : ∀ a ∈ xs, RustNumbers (f a)) :
    RustNumbers (serVec f xs) := by
  rw [serVec, RustNumbers, rustList_iff]
  intro x hx
  obtain ⟨a, ha, rfl⟩ := List.mem_map.1 hx
  exact h a ha

theorem rust_serOpt {α : Type} {f : α → Json} (o : Option α) (h : ∀ a ∈ o, RustNumbers (f a)) :
    RustNumbers (serOpt f o) := by
  cases o with
  | none => trivial
  | some a => exact h a rfl

theorem Fits.rust {n : Nat} {j : Json} (h : Fits n j) : RustNumbers j := Json.rust_of_plain j h.1

theorem rust_context (c : LinkedDataContext) (h : RustContext c) : RustNumbers c.ser := by
  cases c with
  | string s => trivial
  | map m =>
    refine rust_obj fun x hx => ?_
    obtain ⟨a, ha, rfl⟩ := List.mem_map.1 hx
    exact (h.2 a ha).2

theorem rust_credential (c : CredentialFormatProfile) (h : RustCredential c) : RustNumbers c.ser := by
  cases c with
  | ldpVc ctx types cs order =>
    exact rust_obj (forall_cons (fits_str 0 _).rust (forall_cons
      (rust_serVec ctx fun c hc => rust_context c (h.1 c hc)) (forall_cons (fits_strs 0 _).rust
      fun p hp => (fits_subjects 0 _ _ _ _ p hp).rust)))
  | jwtVcJson types cs order => exact (fits_credential (n := 0) (.jwtVcJson types cs order) h).rust
  | jwtVcJsonLd types cs order => exact (fits_credential (n := 0) (.jwtVcJsonLd types cs order) h).rust
  | msoMdoc d cs order => exact (fits_credential (n := 0) (.msoMdoc d cs order) h).rust

theorem fits_grants (n : Nat) (g : CredentialOfferGrants) : Fits (n + 2) g.ser :=
  fits_obj (forall_append
    (fits_skipNone _ fun _ _ => fits_obj (forall_cons (fits_serOpt _ fun _ _ => fits_str _ _)
      forall_nil))
    (fits_skipNone _ fun _ _ => fits_obj (forall_cons (fits_str _ _)
      (fits_skipNone _ fun _ _ => fits_bool _ _))))

theorem rust_offer (o : CredentialOffer) (h : ∀ c ∈ o.credentials, RustEntry c) : RustNumbers o.ser := by
  refine rust_obj (forall_cons (fits_str 0 _).rust (forall_cons (rust_serVec _ fun c hc => ?_)
    (forall_cons (fits_grants 0 _).rust forall_nil)))
  have := h c hc
  cases c with
  | credentialId s => trivial
  | credential c => exact rust_credential c this

theorem rust_members (c : CredentialFormatProfile) (h : RustCredential c) :
    ∀ p ∈ c.members, RustNumbers p.2 := by
  have hf := rust_credential c h
  have hm : c.ser = .obj c.members := by cases c <;> rfl
  rwa [hm, RustNumbers, rustMembers_iff] at hf

theorem rust_request (r : CredentialRequest) (h : RustCredential r.format) : RustNumbers r.ser :=
  rust_obj (forall_append (rust_members _ h) (forall_cons
    (rust_serOpt _ fun _ _ => (fits_proof 0 _).rust) forall_nil))

theorem rust_successResponse (r : CredentialSuccessResponse)
    (h : ∀ f, r.credential = some (.credentialFormatProfile f) → RustCredential f) : RustNumbers r.ser := by
  refine rust_obj (forall_cons (fits_str 0 _).rust (forall_cons (rust_serOpt _ fun c hc => ?_) (forall_cons
    (fits_serOpt (n := 0) _ fun _ _ => fits_str _ _).rust (forall_cons
    (fits_serOpt (n := 0) _ fun _ _ => fits_str _ _).rust
    (forall_cons (fits_serOpt (n := 0) _ fun _ _ => fits_u32 _ _).rust forall_nil)))))
  cases c with
  | credentialFormatProfile f => exact rust_obj (forall_cons (rust_credential f (h f hc)) forall_nil)
  | encoded s => exact rust_obj (forall_cons (fits_str 0 _).rust forall_nil)

theorem rust_supported (c : CredentialSupported) (h : RustCredential c.format) : RustNumbers c.ser :=
  rust_obj (forall_append (rust_members _ h) (forall_cons
    (fits_serOpt (n := 0) _ fun _ _ => fits_str _ _).rust (forall_cons
    (fits_serOpt (n := 1) _ fun _ _ => fits_strs _ _).rust
    (forall_cons (fits_serOpt (n := 1) _ fun _ _ => fits_strs _ _).rust (forall_cons
    (rust_serOpt _ fun _ _ => rust_serVec _ fun _ _ => (fits_displayProperties 0 _).rust) forall_nil)))))

theorem rust_metadata (m : CredentialIssuerMetadata)
    (h : ∀ c ∈ m.credentialsSupported, RustCredential c.format)
    (ha : ∀ a ∈ m.additionalFields, ∀ p ∈ a, RustNumbers p.2) : RustNumbers m.ser := by
  refine rust_obj (forall_append (forall_cons (fits_str 0 _).rust (forall_cons
    (fits_serOpt (n := 0) _ fun _ _ => fits_str _ _).rust (forall_cons (fits_str 0 _).rust (forall_cons
    (fits_serOpt (n := 0) _ fun _ _ => fits_str _ _).rust (forall_cons
    (rust_serVec _ fun c hc => rust_supported c (h c hc)) forall_nil))))) ?_)
  cases hm : m.additionalFields with
  | none => exact forall_nil
  | some a => exact ha a hm

end Oid4vci
