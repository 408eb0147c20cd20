import Verif.Lemmas.Displayed
import Verif.Lemmas.JsonText
import Verif.Lemmas.Shallow
import Verif.Props.Documents

/-! What reading makes of the parts of a document: maps without duplicates, normal values, no deeper nesting. -/

namespace Oid4vci

open Spec hiding value
open Serde

/-! ### Numbers of a parsed document -/

theorem NumberText.range {n : Int} {s : Str} (h : NumberText (.num n) s) : -2 ^ 63 ≤ n ∧ n < 2 ^ 64 := by
  cases h with
  | nonneg n _ _ h => omega
  | negative n _ _ _ h => omega

mutual
theorem ValueText.rust {v : Json} {s : Str} (h : ValueText v s) : RustNumbers v := by
  match h with
  | .null | .true | .false | .string .. => simp [RustNumbers]
  | .integer n s h => simpa [RustNumbers] using NumberText.range h
  | .float d s h h' => simpa [RustNumbers] using ReadAs.isDouble h'
  | .emptyArray .. => simp [RustNumbers, RustNumbersList]
  | .array x xs w s t _ hx ht => simp only [RustNumbers, RustNumbersList]; exact ⟨ValueText.rust hx, ElementsText.rust ht⟩
  | .emptyObject .. => simp [RustNumbers, RustNumbersMembers]
  | .object k v kvs w s t _ hv ht => simp only [RustNumbers, RustNumbersMembers]; exact ⟨MemberText.rust hv, MembersText.rust ht⟩
theorem ElementsText.rust {vs : List Json} {s : Str} (h : ElementsText vs s) : RustNumbersList vs := by
  match h with
  | .close .. => simp [RustNumbersList]
  | .more x xs w w' s t _ _ hx ht => simp only [RustNumbersList]; exact ⟨ValueText.rust hx, ElementsText.rust ht⟩
theorem MemberText.rust {k : Str} {v : Json} {s : Str} (h : MemberText k v s) : RustNumbers v := by
  match h with
  | .mk k v s w w' t _ _ _ h => exact ValueText.rust h
theorem MembersText.rust {kvs : List (Str × Json)} {s : Str} (h : MembersText kvs s) :
    RustNumbersMembers kvs := by
  match h with
  | .close .. => simp [RustNumbersMembers]
  | .more k v kvs w w' s t _ _ hx ht => simp only [RustNumbersMembers]; exact ⟨MemberText.rust hx, MembersText.rust ht⟩
end

/-- Numbers as `serde_json::Number` holds them, and at most `n` levels of nesting. -/
def Sound (n : Nat) (v : Json) : Prop := RustNumbers v ∧ depth v ≤ n

theorem parse_sound_rust {s : Str} {v : Json} (h : Json.parse s = some v) : Sound 127 v := by
  obtain ⟨⟨_, _, _, _, ht, _⟩, hd⟩ := Json.parse_sound h
  exact ⟨ValueText.rust ht, hd⟩

mutual
theorem SeenValue.rust {σ : Shape} {v : Json} {s : Str} (h : SeenValue σ v s) : RustNumbers v := by
  match h with
  | .leaf _ _ _ _ h => exact ValueText.rust h
  | .emptyArray .. => simp [RustNumbers, RustNumbersList]
  | .array _ _ x xs w s t _ _ hx ht => simp only [RustNumbers, RustNumbersList]; exact ⟨SeenValue.rust hx, SeenElements.rust ht⟩
  | .emptyObject .. => simp [RustNumbers, RustNumbersMembers]
  | .object _ k v kvs w s t _ hv ht => simp only [RustNumbers, RustNumbersMembers]; exact ⟨SeenMember.rust hv, SeenMembers.rust ht⟩
theorem SeenElements.rust {σ : Shape} {i : Nat} {vs : List Json} {s : Str} (h : SeenElements σ i vs s) :
    RustNumbersList vs := by
  match h with
  | .close .. => simp [RustNumbersList]
  | .more _ _ _ x xs w w' s t _ _ _ hx ht => simp only [RustNumbersList]; exact ⟨SeenValue.rust hx, SeenElements.rust ht⟩
theorem SeenMember.rust {σ : Shape} {k : Str} {v : Json} {s : Str} (h : SeenMember σ k v s) : RustNumbers v := by
  match h with
  | .read _ _ k v s w w' t _ _ _ _ h => exact SeenValue.rust h
  | .skipped .. => simp [RustNumbers]
theorem SeenMembers.rust {σ : Shape} {kvs : List (Str × Json)} {s : Str} (h : SeenMembers σ kvs s) :
    RustNumbersMembers kvs := by
  match h with
  | .close .. => simp [RustNumbersMembers]
  | .more _ k v kvs w w' s t _ _ hx ht => simp only [RustNumbersMembers]; exact ⟨SeenMember.rust hx, SeenMembers.rust ht⟩
end

theorem see_sound_rust {σ : Shape} {s : Str} {v : Json} (h : Json.see σ s = some v) : Sound 127 v := by
  obtain ⟨⟨_, _, _, _, ht, _⟩, hd⟩ := Json.see_iff.1 h
  exact ⟨SeenValue.rust ht, hd⟩

namespace Sound

theorem mono {n m : Nat} {v : Json} (h : Sound n v) (hnm : n ≤ m) : Sound m v := ⟨h.1, h.2.trans hnm⟩

theorem elem {n : Nat} {vs : List Json} (h : Sound (n + 1) (.arr vs)) : ∀ v ∈ vs, Sound n v := by
  obtain ⟨h1, h2⟩ := h
  rw [RustNumbers, rustList_iff] at h1
  rw [depth, Nat.add_le_add_iff_right, depthList_iff] at h2
  exact fun v hv => ⟨h1 v hv, h2 v hv⟩

theorem member {n : Nat} {kvs : List (Str × Json)} (h : Sound (n + 1) (.obj kvs)) : ∀ p ∈ kvs, Sound n p.2 := by
  obtain ⟨h1, h2⟩ := h
  rw [RustNumbers, rustMembers_iff] at h1
  rw [depth, Nat.add_le_add_iff_right, depthMembers_iff] at h2
  exact fun v hv => ⟨h1 v hv, h2 v hv⟩

theorem arr {n : Nat} {vs : List Json} (h : ∀ v ∈ vs, Sound n v) : Sound (n + 1) (.arr vs) := by
  refine ⟨?_, ?_⟩
  · rw [RustNumbers, rustList_iff]; exact fun v hv => (h v hv).1
  · rw [depth, Nat.add_le_add_iff_right, depthList_iff]; exact fun v hv => (h v hv).2

theorem obj {n : Nat} {kvs : List (Str × Json)} (h : ∀ p ∈ kvs, Sound n p.2) : Sound (n + 1) (.obj kvs) := by
  refine ⟨?_, ?_⟩
  · rw [RustNumbers, rustMembers_iff]; exact fun v hv => (h v hv).1
  · rw [depth, Nat.add_le_add_iff_right, depthMembers_iff]; exact fun v hv => (h v hv).2

theorem slots {n : Nat} {names : List Str} {v : Json} {os : List (Option Json)} (hs : Slots names v os)
    (h : Sound (n + 1) v) : ∀ w, some w ∈ os → Sound n w := by
  cases hs with
  | array vs hl =>
    intro w hw
    simp only [List.mem_map, Option.some.injEq, exists_eq_right] at hw
    exact h.elem w hw
  | object kvs os hf =>
    intro w hw
    induction hf with
    | nil => simp at hw
    | cons h1 _ ih =>
      rcases List.mem_cons.1 hw with rfl | hw
      · exact h.member _ h1.1
      · exact ih hw

end Sound

/-! ### Values -/

theorem binsert_mem {m : List (Str × Json)} {k : Str} {v : Json} {p : Str × Json} (h : p ∈ binsert m k v) :
    p = (k, v) ∨ p ∈ m := by
  induction m with
  | nil => simpa [binsert] using h
  | cons q m ih =>
    obtain ⟨k', v'⟩ := q
    rw [binsert] at h
    split at h
    · rcases List.mem_cons.1 h with h | h
      · exact .inl h
      · exact .inr (by simp [h])
    · split at h
      · rcases List.mem_cons.1 h with h | h
        · exact .inl h
        · exact .inr h
      · rcases List.mem_cons.1 h with h | h
        · exact .inr (by simp [h])
        · rcases ih h with h | h
          · exact .inl h
          · exact .inr (by simp [h])

theorem binsert_sorted {m : List (Str × Json)} {k : Str} {v : Json}
    (h : m.Pairwise fun p q => p.1 < q.1) : (binsert m k v).Pairwise fun p q => p.1 < q.1 := by
  induction m with
  | nil => simp [binsert]
  | cons q m ih =>
    obtain ⟨k', v'⟩ := q
    rw [List.pairwise_cons] at h
    rw [binsert]
    split
    · rename_i hk; subst hk; exact List.pairwise_cons.2 ⟨h.1, h.2⟩
    · rename_i hk
      split
      · rename_i hl
        have hl := (strLt_iff _ _).1 hl
        refine List.pairwise_cons.2 ⟨?_, List.pairwise_cons.2 h⟩
        intro p hp
        rcases List.mem_cons.1 hp with rfl | hp
        · exact hl
        · exact List.lt_trans hl (h.1 p hp)
      · rename_i hl
        refine List.pairwise_cons.2 ⟨?_, ih h.2⟩
        intro p hp
        rcases binsert_mem hp with rfl | hp
        · have hl : ¬ k < k' := fun hh => hl ((strLt_iff _ _).2 hh)
          rcases List.le_iff_lt_or_eq.1 (List.not_lt.1 hl) with h1 | h1
          · exact h1
          · exact absurd h1.symm hk
        · exact h.1 p hp

theorem normalList_iff (vs : List Json) : NormalList vs ↔ ∀ v ∈ vs, Normal v := by
  induction vs with
  | nil => simp [NormalList]
  | cons x xs ih => simp [NormalList, ih]

theorem normalMembers_iff (kvs : List (Str × Json)) : NormalMembers kvs ↔ ∀ p ∈ kvs, Normal p.2 := by
  induction kvs with
  | nil => simp [NormalMembers]
  | cons p kvs ih =>
    obtain ⟨k, v⟩ := p
    simp only [NormalMembers, ih, List.mem_cons, forall_eq_or_imp]

mutual
/-- `serde_json::Value` makes every document a value of its own. -/
theorem value_sound (v : Json) (n : Nat) (h : Sound n v) : Normal (value v) ∧ Sound n (value v) := by
  match v with
  | .null | .bool _ | .num _ | .float _ | .str _ => exact ⟨by simp [value, Normal], by simpa [value] using h⟩
  | .arr vs =>
    cases n with
    | zero => have := h.2; simp [depth] at this
    | succ n =>
      have := valueList_sound vs n h.elem
      rw [value]
      exact ⟨by rw [Normal, normalList_iff]; exact fun v hv => (this v hv).1, .arr fun v hv => (this v hv).2⟩
  | .obj kvs =>
    cases n with
    | zero => have := h.2; simp [depth] at this
    | succ n =>
      have := valueEntries_sound kvs n h.member [] .nil (by simp)
      rw [value]
      exact ⟨by rw [Normal, normalMembers_iff]; exact ⟨this.1, fun v hv => (this.2 v hv).1⟩,
        .obj fun v hv => (this.2 v hv).2⟩
theorem valueList_sound (vs : List Json) (n : Nat) (h : ∀ v ∈ vs, Sound n v) :
    ∀ v ∈ valueList vs, Normal v ∧ Sound n v := by
  match vs with
  | [] => simp [valueList]
  | x :: xs =>
    intro v hv
    rw [valueList] at hv
    rcases List.mem_cons.1 hv with rfl | hv
    · exact value_sound x n (h x (by simp))
    · exact valueList_sound xs n (fun v hv => h v (by simp [hv])) v hv
theorem valueEntries_sound (kvs : List (Str × Json)) (n : Nat) (h : ∀ p ∈ kvs, Sound n p.2)
    (acc : List (Str × Json)) (hs : acc.Pairwise fun p q => p.1 < q.1)
    (ha : ∀ p ∈ acc, Normal p.2 ∧ Sound n p.2) :
    (valueEntries acc kvs).Pairwise (fun p q => p.1 < q.1) ∧
      ∀ p ∈ valueEntries acc kvs, Normal p.2 ∧ Sound n p.2 := by
  match kvs with
  | [] => exact ⟨by simpa [valueEntries] using hs, by simpa [valueEntries] using ha⟩
  | (k, v) :: kvs =>
    have hv := value_sound v n (h (k, v) (by simp))
    rw [valueEntries]
    refine valueEntries_sound kvs n (fun p hp => h p (by simp [hp])) _ (binsert_sorted hs) ?_
    intro p hp
    rcases binsert_mem hp with rfl | hp
    · exact hv
    · exact ha p hp
end

theorem value_rust {v : Json} (h : RustNumbers v) : RustValue (value v) :=
  have := value_sound v _ ⟨h, le_rfl⟩
  ⟨this.1, this.2.1⟩

/-! ### Maps -/

theorem hinsert_keys {α : Type} (m : HMap α) (k k' : Str) (v : α) (h : k' ∈ (hinsert m k v).map Prod.fst) :
    k' = k ∨ k' ∈ m.map Prod.fst := by
  induction m with
  | nil => simpa [hinsert] using h
  | cons q m ih =>
    obtain ⟨k₁, v₁⟩ := q
    rw [hinsert] at h
    split at h
    · rename_i e
      subst e
      simp only [List.map_cons, List.mem_cons] at h ⊢
      rcases h with h | h
      · exact .inl h
      · exact .inr (.inr h)
    · simp only [List.map_cons, List.mem_cons] at h ⊢
      rcases h with h | h
      · exact .inr (.inl h)
      · rcases ih h with h | h
        · exact .inl h
        · exact .inr (.inr h)

theorem hinsert_unique {α : Type} {m : HMap α} {k : Str} {v : α} (h : UniqueKeys m) :
    UniqueKeys (hinsert m k v) := by
  unfold UniqueKeys at *
  induction m with
  | nil => simp [hinsert]
  | cons q m ih =>
    obtain ⟨k₁, v₁⟩ := q
    simp only [List.map_cons, List.nodup_cons] at h
    rw [hinsert]
    split
    · rename_i e; subst e; simpa using h
    · rename_i e
      simp only [List.map_cons, List.nodup_cons]
      refine ⟨fun hm => ?_, ih h.2⟩
      rcases hinsert_keys _ _ _ _ hm with h' | h'
      · exact e h'.symm
      · exact h.1 h'

theorem lastWins_unique {α : Type} (l : List (Str × α)) : UniqueKeys (lastWins l) := by
  induction l using List.reverseRecOn with
  | nil => simp [lastWins, UniqueKeys]
  | append_singleton l p ih => rw [lastWins_snoc]; exact hinsert_unique ih

theorem lastWins_mem {α : Type} {l : List (Str × α)} {p : Str × α} (h : p ∈ lastWins l) : p ∈ l := by
  unfold lastWins at h
  obtain ⟨k, _, hf⟩ := List.mem_filterMap.1 h
  simpa using List.mem_of_find?_eq_some hf

theorem MapOf.unique {α : Type} {is : Json → α → Prop} {v : Json} {m : HMap α} (h : MapOf is v m) :
    UniqueKeys m := by
  obtain ⟨_, _, _, _, rfl⟩ := h
  exact lastWins_unique _

theorem forall₂_right {α β : Type} {R : α → β → Prop} {xs : List α} {ys : List β} (h : List.Forall₂ R xs ys) :
    ∀ y ∈ ys, ∃ x ∈ xs, R x y := by
  induction h with
  | nil => simp
  | cons h _ ih =>
    intro y hy
    rcases List.mem_cons.1 hy with rfl | hy
    · exact ⟨_, by simp, h⟩
    · obtain ⟨x, hx, hr⟩ := ih y hy
      exact ⟨x, by simp [hx], hr⟩

theorem MapOf.values {v : Json} {m : HMap Json} {n : Nat} (h : MapOf (fun v j => j = Serde.value v) v m)
    (hv : Sound (n + 1) v) : ∀ p ∈ m, RustValue p.2 ∧ depth p.2 ≤ n := by
  obtain ⟨kvs, as, rfl, hf, rfl⟩ := h
  intro p hp
  obtain ⟨q, hq, _, e⟩ := forall₂_right hf p (lastWins_mem hp)
  have := value_sound q.2 n (hv.member q hq)
  rw [← e] at this
  exact ⟨⟨this.1, this.2.1⟩, this.2.2⟩

/-! ### The documents -/

theorem Optional.unique {α : Type} {is : Json → HMap α → Prop} {o : Option Json} {m : Option (HMap α)}
    (hu : ∀ v m, is v m → UniqueKeys m) (h : Optional is o m) : ∀ a ∈ m, UniqueKeys a := by
  intro a ha
  cases ha
  obtain ⟨v, _, h⟩ := h
  exact hu v a h

theorem ContextDoc.sound {v : Json} {c : LinkedDataContext} {n : Nat} (h : ContextDoc v c)
    (hv : Sound (n + 1) v) : RustContext c ∧ Shallow.Context n c := by
  cases c with
  | string s => exact ⟨trivial, trivial⟩
  | map m =>
    have := MapOf.values h hv
    exact ⟨⟨MapOf.unique (is := fun v j => j = Serde.value v) h, fun p hp => (this p hp).1⟩, fun p hp => (this p hp).2⟩

theorem Tagged.sound {tag : Str} {v t content : Json} {n : Nat} (h : Tagged tag v t content) (hv : Sound n v) :
    Sound n content := by
  cases n with
  | zero => cases h <;> (have := hv.2; simp [depth] at this)
  | succ n =>
    cases h with
    | object kvs t _ => exact .obj fun p hp => hv.member p (List.mem_of_mem_filter hp)
    | array t r => exact .arr fun p hp => hv.elem p (by simp [hp])

theorem CredentialDoc.sound {b : Bool} {v : Json} {c : CredentialFormatProfile} {n : Nat}
    (h : CredentialDoc b v c) (hv : Sound (n + 3) v) : RustCredential c ∧ Shallow.Credential n c := by
  obtain ⟨t, content, ht, h⟩ := h
  have hc := Tagged.sound ht hv
  have hu : ∀ v m, MapOf SubjectDoc v m → UniqueKeys m := fun _ _ => MapOf.unique
  cases c with
  | jwtVcJson types cs order =>
    obtain ⟨_, _, _, _, _, _, h, _⟩ := h
    exact ⟨Optional.unique hu h, trivial⟩
  | jwtVcJsonLd types cs order =>
    obtain ⟨_, _, _, _, _, _, h, _⟩ := h
    exact ⟨Optional.unique hu h, trivial⟩
  | msoMdoc d cs order =>
    obtain ⟨_, _, _, _, _, _, h, _⟩ := h
    exact ⟨Optional.unique hu h, trivial⟩
  | ldpVc ctx types cs order =>
    obtain ⟨_, a, _, _, _, hs, ⟨w, rfl, vs, rfl, hl⟩, _, h, _⟩ := h
    have hw := hc.slots hs (.arr vs) (by simp)
    have : ∀ c ∈ ctx, RustContext c ∧ Shallow.Context n c := by
      intro c hc
      obtain ⟨w, hw', hd⟩ := forall₂_right hl c hc
      exact ContextDoc.sound hd (hw.elem w hw')
    exact ⟨⟨fun c hc => (this c hc).1, Optional.unique hu h⟩, fun c hc => (this c hc).2⟩

theorem OfferDoc.sound {v : Json} {o : CredentialOffer} {n : Nat} (h : OfferDoc v o) (hv : Sound (n + 5) v) :
    (∀ c ∈ o.credentials, RustEntry c) ∧ depth o.ser ≤ max 7 (n + 5) := by
  obtain ⟨_, _, _, hs, _, ⟨w, rfl, vs, rfl, hl⟩, _⟩ := h
  have hw := hv.slots hs (.arr vs) (by simp)
  have : ∀ c ∈ o.credentials, RustEntry c ∧ Shallow.Entry n c := by
    intro c hc
    obtain ⟨w, hw', hd⟩ := forall₂_right hl c hc
    cases c with
    | credentialId s => exact ⟨trivial, trivial⟩
    | credential f => exact CredentialDoc.sound hd (hw.elem w hw')
  exact ⟨fun c hc => (this c hc).1, Shallow.fits_offer o fun c hc => (this c hc).2⟩

theorem RequestDoc.sound {v : Json} {r : CredentialRequest} {n : Nat} (h : RequestDoc v r) (hv : Sound (n + 3) v) :
    RustCredential r.format ∧ depth r.ser ≤ max 5 (n + 3) := by
  obtain ⟨kvs, proof, rfl, _, _, hd⟩ := h
  have := CredentialDoc.sound hd (n := n) (.obj fun p hp => hv.member p (List.mem_of_mem_filter hp))
  exact ⟨this.1, Shallow.fits_request r this.2⟩

theorem ResponseDoc.sound {v : Json} {r : CredentialSuccessResponse} {n : Nat} (h : ResponseDoc v r)
    (hv : Sound (n + 5) v) :
    (∀ f, r.credential = some (.credentialFormatProfile f) → RustCredential f) ∧ depth r.ser ≤ max 7 (n + 5) := by
  obtain ⟨_, _, _, _, _, hs, _, hc, _⟩ := h
  have : ∀ f, r.credential = some (.credentialFormatProfile f) → RustCredential f ∧ Shallow.Credential n f := by
    intro f hf
    rw [hf] at hc
    obtain ⟨w, rfl, w', rfl, hd⟩ := hc
    exact CredentialDoc.sound hd ((hv.slots hs (.obj [(str! "CredentialFormatProfile", w')]) (by simp)).member (str! "CredentialFormatProfile", w') (by simp))
  exact ⟨fun f hf => (this f hf).1, Shallow.fits_successResponse r fun f hf => (this f hf).2⟩

theorem MetadataDoc.sound {v : Json} {m : CredentialIssuerMetadata} {n : Nat} (h : MetadataDoc v m)
    (hv : Sound (n + 5) v) :
    ((∀ c ∈ m.credentialsSupported, RustCredential c.format) ∧
      ∀ a ∈ m.additionalFields, UniqueKeys a ∧ ∀ p ∈ a, RustValue p.2) ∧
    m.additionalFields ≠ none ∧ (∀ a ∈ m.additionalFields, ∀ p ∈ a, p.1 ∉ metadataFields) ∧
    depth m.ser ≤ max 7 (n + 5) := by
  obtain ⟨kvs, _, _, _, _, _, rfl, hs, _, _, _, _, ⟨w, rfl, vs, rfl, hl⟩, a, ha, hm⟩ := h
  have hw := hv.slots (.object kvs _ hs) (.arr vs) (by simp)
  have hc : ∀ c ∈ m.credentialsSupported, RustCredential c.format ∧ Shallow.Credential n c.format := by
    intro c hc
    obtain ⟨w, hw', kvs', _, _, _, _, rfl, _, _, _, _, _, hd⟩ := forall₂_right hl c hc
    exact CredentialDoc.sound hd (.obj fun p hp => (hw.elem _ hw').member p (List.mem_of_mem_filter hp))
  have hv' := MapOf.values hm (n := n + 4) (.obj fun p hp => hv.member p (List.mem_of_mem_filter hp))
  refine ⟨⟨fun c h => (hc c h).1, ?_⟩, by simp [ha], ?_, Shallow.fits_metadata m (fun c h => (hc c h).2) ?_⟩
  · intro b hb
    rw [ha] at hb; cases hb
    exact ⟨MapOf.unique hm, fun p hp => (hv' p hp).1⟩
  · intro b hb p hp
    rw [ha] at hb; cases hb
    obtain ⟨kvs', as, e, hf, rfl⟩ := hm
    cases e
    obtain ⟨q, hq, e, _⟩ := forall₂_right hf p (lastWins_mem hp)
    rw [← e]
    simpa using (List.mem_filter.1 hq).2
  · intro b hb p hp
    rw [ha] at hb; cases hb
    exact (hv' p hp).2

end Oid4vci
