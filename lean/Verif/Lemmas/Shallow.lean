import Verif.Lemmas.Fits

/-! Nesting depth of serialised values, whatever their numbers. -/

namespace Oid4vci.Shallow

open Serde Spec

/-- At most `n` levels of nesting. -/
def Fits (n : Nat) (j : Json) : Prop := depth j ≤ n

/-- The values of the context are nested at most `n` deep. -/
def Context (n : Nat) : LinkedDataContext → Prop
  | .string _ => True
  | .map m => ∀ p ∈ m, depth p.2 ≤ n

/-- The values of the contexts are nested at most `n` deep. -/
def Credential (n : Nat) : CredentialFormatProfile → Prop
  | .ldpVc ctx _ _ _ => ∀ c ∈ ctx, Context n c
  | _ => True

/-- The same of an entry. -/
def Entry (n : Nat) : CredentialOrId → Prop
  | .credentialId _ => True
  | .credential c => Credential n c

theorem Fits.mono {n m : Nat} {j : Json} (h : Fits n j) (hnm : n ≤ m) : Fits m j :=
  Nat.le_trans h hnm

theorem fits_obj {n : Nat} {kvs : List (Str × Json)} (h : ∀ p ∈ kvs, Fits n p.2) :
    Fits (n + 1) (.obj kvs) := by
  unfold Fits
  rw [depth, Nat.add_le_add_iff_right, depthMembers_iff]; exact h

theorem fits_arr {n : Nat} {xs : List Json} (h : ∀ x ∈ xs, Fits n x) : Fits (n + 1) (.arr xs) := by
  unfold Fits
  rw [depth, Nat.add_le_add_iff_right, depthList_iff]; exact h

theorem fits_str (n : Nat) (s : Str) : Fits n (.str s) := by simp [Fits, depth]
theorem fits_null (n : Nat) : Fits n .null := by simp [Fits, depth]
theorem fits_bool (n : Nat) (b : Bool) : Fits n (.bool b) := by simp [Fits, depth]
theorem fits_u32 (n : Nat) (u : UInt32) : Fits n (serU32 u) := by
  simp [Fits, depth, serU32]
theorem fits_u64 (n : Nat) (u : UInt64) : Fits n (serU64 u) := by
  simp [Fits, depth, serU64]

theorem fits_serOpt {α : Type} {n : Nat} {f : α → Json} (o : Option α) (h : ∀ a ∈ o, Fits n (f a)) :
    Fits n (serOpt f o) := by
  cases o with
  | none => exact fits_null n
  | some a => exact h a rfl

theorem fits_serVec {α : Type} {n : Nat} {f : α → Json} (xs : List α) (h : ∀ a ∈ xs, Fits n (f a)) :
    Fits (n + 1) (serVec f xs) := by
  refine fits_arr fun x hx => ?_
  obtain ⟨a, ha, rfl⟩ := List.mem_map.1 hx
  exact h a ha

theorem fits_strs (n : Nat) (xs : List Str) : Fits (n + 1) (serVec .str xs) :=
  fits_serVec xs fun _ _ => fits_str _ _

theorem fits_serMap {α : Type} {n : Nat} {f : α → Json} (m : HMap α) (h : ∀ p ∈ m, Fits n (f p.2)) :
    Fits (n + 1) (serMap f m) := by
  refine fits_obj fun x hx => ?_
  obtain ⟨a, ha, rfl⟩ := List.mem_map.1 hx
  exact h a ha

theorem fits_skipNone {α : Type} {n : Nat} {k : Str} {f : α → Json} (o : Option α)
    (h : ∀ a ∈ o, Fits n (f a)) : ∀ p ∈ skipNone k f o, Fits n p.2 := by
  intro p hp
  cases o with
  | none => simp [skipNone] at hp
  | some a => simp [skipNone] at hp; rw [hp]; exact h a rfl

theorem fits_subjectDisplay (n : Nat) (d : CredentialSubjectDisplay) : Fits (n + 1) d.ser :=
  fits_obj (forall_append (fits_skipNone _ fun _ _ => fits_str _ _)
    (fits_skipNone _ fun _ _ => fits_str _ _))

theorem fits_subject (n : Nat) (c : CredentialSubject) : Fits (n + 3) c.ser :=
  fits_obj (forall_append (forall_append (fits_skipNone _ fun _ _ => fits_bool _ _)
    (fits_skipNone _ fun _ _ => fits_str _ _))
    (fits_skipNone _ fun _ _ => fits_serVec _ fun _ _ => fits_subjectDisplay n _))

theorem fits_context {n : Nat} (c : LinkedDataContext) (h : Context n c) :
    Fits (n + 1) c.ser := by
  cases c with
  | string s => exact fits_str _ _
  | map m => exact fits_serMap m h

theorem fits_subjects (n : Nat) (o : Option (HMap CredentialSubject)) (order : Option (List Str))
    (k k' : Str) : ∀ p ∈ skipNone k (serMap CredentialSubject.ser) o
      ++ skipNone k' (serVec .str) order, Fits (n + 4) p.2 :=
  forall_append (fits_skipNone _ fun _ _ => fits_serMap _ fun _ _ => fits_subject n _)
    (fits_skipNone _ fun _ _ => fits_strs _ _)

theorem fits_credential {n : Nat} (c : CredentialFormatProfile) (h : Credential n c) :
    Fits (max 5 (n + 3)) c.ser := by
  obtain ⟨k, hk⟩ : ∃ k, max 5 (n + 3) = k + 4 + 1 := ⟨max 5 (n + 3) - 5, by omega⟩
  rw [hk]
  cases c with
  | jwtVcJson types cs order =>
    exact fits_obj (forall_cons (fits_str _ _) (forall_cons (fits_strs _ _) (fits_subjects k _ _ _ _)))
  | jwtVcJsonLd types cs order =>
    exact fits_obj (forall_cons (fits_str _ _) (forall_cons (fits_strs _ _) (fits_subjects k _ _ _ _)))
  | msoMdoc d cs order =>
    exact fits_obj (forall_cons (fits_str _ _) (forall_cons (fits_str _ _) (fits_subjects k _ _ _ _)))
  | ldpVc ctx types cs order =>
    refine fits_obj (forall_cons (fits_str _ _) (forall_cons ?_ (forall_cons (fits_strs _ _)
      (fits_subjects k _ _ _ _))))
    exact fits_serVec ctx fun c hc => (fits_context c (h c hc)).mono (by omega)

theorem fits_offer {n : Nat} (o : CredentialOffer) (h : ∀ c ∈ o.credentials, Entry n c) :
    Fits (max 7 (n + 5)) o.ser := by
  obtain ⟨k, hk⟩ : ∃ k, max 7 (n + 5) = k + 1 + 1 := ⟨max 7 (n + 5) - 2, by omega⟩
  have hge : max 5 (n + 3) = k := by omega
  have h5 : 5 ≤ k := by omega
  rw [hk]
  refine fits_obj (forall_cons (fits_str _ _) (forall_cons ?_ (forall_cons ?_ forall_nil)))
  · refine fits_serVec _ fun c hc => ?_
    have := h c hc
    cases c with
    | credentialId s => exact fits_str _ _
    | credential c => rw [← hge]; exact fits_credential c this
  · obtain ⟨l, rfl⟩ : ∃ l, k = l + 1 := ⟨k - 1, by omega⟩
    exact fits_obj (forall_append
      (fits_skipNone _ fun _ _ => fits_obj (forall_cons (fits_serOpt _ fun _ _ => fits_str _ _)
        forall_nil))
      (fits_skipNone _ fun _ _ => fits_obj (forall_cons (fits_str _ _)
        (fits_skipNone _ fun _ _ => fits_bool _ _))))
theorem fits_proof (n : Nat) (p : CredentialRequestProof) : Fits (n + 1) p.ser :=
  fits_obj (forall_cons (fits_str _ _) (forall_cons (fits_str _ _) forall_nil))

theorem fits_members {n : Nat} (c : CredentialFormatProfile) (h : Credential n c) :
    ∀ p ∈ c.members, Fits (max 4 (n + 2)) p.2 := by
  have hf := fits_credential c h
  have hm : c.ser = .obj c.members := by cases c <;> rfl
  rw [hm] at hf
  unfold Fits at hf
  rw [depth, show max 5 (n + 3) = max 4 (n + 2) + 1 by omega, Nat.add_le_add_iff_right,
    depthMembers_iff] at hf
  exact hf

theorem fits_request {n : Nat} (r : CredentialRequest) (h : Credential n r.format) :
    Fits (max 5 (n + 3)) r.ser := by
  rw [show max 5 (n + 3) = max 4 (n + 2) + 1 by omega]
  refine fits_obj (forall_append (fits_members _ h) (forall_cons ?_ forall_nil))
  exact (fits_serOpt _ fun _ _ => fits_proof 0 _).mono (by omega)

theorem fits_successResponse {n : Nat} (r : CredentialSuccessResponse)
    (h : ∀ f, r.credential = some (.credentialFormatProfile f) → Credential n f) :
    Fits (max 7 (n + 5)) r.ser := by
  obtain ⟨k, hk⟩ : ∃ k, max 7 (n + 5) = k + 1 + 1 := ⟨max 7 (n + 5) - 2, by omega⟩
  have hge : max 5 (n + 3) = k := by omega
  rw [hk]
  refine fits_obj (forall_cons (fits_str _ _) (forall_cons ?_ (forall_cons
    (fits_serOpt _ fun _ _ => fits_str _ _) (forall_cons (fits_serOpt _ fun _ _ => fits_str _ _)
    (forall_cons (fits_serOpt _ fun _ _ => fits_u32 _ _) forall_nil)))))
  refine fits_serOpt _ fun c hc => ?_
  cases c with
  | credentialFormatProfile f =>
    exact fits_obj (forall_cons (hge ▸ fits_credential f (h f hc)) forall_nil)
  | encoded s => exact fits_obj (forall_cons (fits_str _ _) forall_nil)

theorem fits_displayProperties (n : Nat) (d : DisplayProperties) : Fits (n + 2) d.ser :=
  fits_obj (forall_cons (fits_str _ _) (forall_cons (fits_serOpt _ fun _ _ => fits_str _ _)
    (forall_cons (fits_serOpt _ fun _ _ => fits_obj (forall_cons
      (fits_serOpt _ fun _ _ => fits_str _ _) (forall_cons (fits_serOpt _ fun _ _ => fits_str _ _)
      forall_nil)))
    (forall_cons (fits_serOpt _ fun _ _ => fits_str _ _)
    (forall_cons (fits_serOpt _ fun _ _ => fits_str _ _)
    (forall_cons (fits_serOpt _ fun _ _ => fits_str _ _) forall_nil))))))

theorem fits_supported {n : Nat} (c : CredentialSupported) (h : Credential n c.format) :
    Fits (max 5 (n + 3)) c.ser := by
  obtain ⟨k, hk⟩ : ∃ k, max 5 (n + 3) = k + 3 + 1 + 1 := ⟨max 5 (n + 3) - 5, by omega⟩
  have hge : max 4 (n + 2) = k + 3 + 1 := by omega
  rw [hk]
  refine fits_obj (forall_append (hge ▸ fits_members _ h) (forall_cons
    (fits_serOpt _ fun _ _ => fits_str _ _) (forall_cons (fits_serOpt _ fun _ _ => fits_strs _ _)
    (forall_cons (fits_serOpt _ fun _ _ => fits_strs _ _) (forall_cons ?_ forall_nil)))))
  exact fits_serOpt _ fun _ _ => fits_serVec _ fun _ _ => fits_displayProperties _ _

theorem fits_metadata {n : Nat} (m : CredentialIssuerMetadata)
    (h : ∀ c ∈ m.credentialsSupported, Credential n c.format)
    (ha : ∀ a ∈ m.additionalFields, ∀ p ∈ a, depth p.2 ≤ n + 4) :
    Fits (max 7 (n + 5)) m.ser := by
  obtain ⟨k, hk⟩ : ∃ k, max 7 (n + 5) = k + 1 + 1 := ⟨max 7 (n + 5) - 2, by omega⟩
  have hge : max 5 (n + 3) = k := by omega
  rw [hk]
  refine fits_obj (forall_append (forall_cons (fits_str _ _) (forall_cons
    (fits_serOpt _ fun _ _ => fits_str _ _) (forall_cons (fits_str _ _) (forall_cons
    (fits_serOpt _ fun _ _ => fits_str _ _) (forall_cons ?_ forall_nil))))) ?_)
  · exact fits_serVec _ fun c hc => hge ▸ fits_supported c (h c hc)
  · cases hm : m.additionalFields with
    | none => exact forall_nil
    | some a =>
      intro p hp
      have := ha a hm p hp
      exact Nat.le_trans this (by omega)

end Oid4vci.Shallow
