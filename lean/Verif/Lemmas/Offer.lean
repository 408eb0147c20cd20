import Mathlib.Data.List.Forall2
import Verif.Spec.Offer
import Verif.Lemmas.Percent

/-! Lemmas about metadata, resolution and offers. -/

namespace Oid4vci

open Spec

theorem validateAll_ok {α : Type} (f : α → ValidationResult Unit) (h : ∀ x, f x = .ok ())
    (xs : List α) : validateAll f xs = .ok () := by
  induction xs with
  | nil => rfl
  | cons x xs ih => simp [validateAll, h, ih]

theorem DisplayProperties.validate_ok (d : DisplayProperties) : d.validate = .ok () := by
  unfold DisplayProperties.validate
  cases d.logo <;> simp [DisplayLogo.validate]

theorem CredentialSupported.validate_ok (c : CredentialSupported) : c.validate = .ok () := by
  unfold CredentialSupported.validate
  cases c.display <;>
    simp [CredentialFormatProfile.validate, validateAll_ok _ DisplayProperties.validate_ok]

theorem idsUnique_iff (seen : List Str) (cs : List CredentialSupported) :
    idsUnique seen cs = true ↔ DistinctIds cs ∧ ∀ e ∈ cs, ∀ id, e.id = some id → id ∉ seen := by
  induction cs generalizing seen with
  | nil => simp [idsUnique, DistinctIds]
  | cons c cs ih =>
    have hd : DistinctIds (c :: cs) ↔
        DistinctIds cs ∧ ∀ e ∈ cs, ∀ id, e.id = some id → c.id ≠ some id := by
      constructor
      · intro h
        refine ⟨fun i j a b id ha hb hai hbi => ?_, fun e he id hid hc => ?_⟩
        · have := h (i + 1) (j + 1) a b id (by simpa using ha) (by simpa using hb) hai hbi
          omega
        · obtain ⟨j, hj⟩ := List.mem_iff_getElem?.1 he
          have := h 0 (j + 1) c e id (by simp) (by simpa using hj) hc hid
          omega
      · rintro ⟨h1, h2⟩ i j a b id ha hb hai hbi
        cases i with
        | zero =>
          cases j with
          | zero => rfl
          | succ j =>
            have ha' : c = a := by simpa using ha
            subst ha'
            exact absurd hai (h2 b (List.mem_iff_getElem?.2 ⟨j, by simpa using hb⟩) id hbi)
        | succ i =>
          cases j with
          | zero =>
            have hb' : c = b := by simpa using hb
            subst hb'
            exact absurd hbi (h2 a (List.mem_iff_getElem?.2 ⟨i, by simpa using ha⟩) id hai)
          | succ j =>
            rw [h1 i j a b id (by simpa using ha) (by simpa using hb) hai hbi]
    rw [idsUnique, hd]
    cases hid : c.id with
    | none =>
      simp only [ih]
      simp [hid]
    | some id =>
      by_cases hm : id ∈ seen
      · simp [hm, hid]
      · simp only [List.contains_eq_mem, decide_eq_true_eq, hm, if_false, ih]
        simp only [List.mem_cons, forall_eq_or_imp, hid, Option.some.injEq, forall_eq', not_or]
        constructor
        · rintro ⟨h1, h2⟩
          exact ⟨⟨h1, fun e he i hi hh => (h2 e he i hi).1 (Option.some.inj hh).symm⟩, hm,
            fun e he i hi => (h2 e he i hi).2⟩
        · rintro ⟨⟨h1, h2⟩, -, h3⟩
          exact ⟨h1, fun e he i hi => ⟨fun hh => h2 e he i hi (by rw [hh]), h3 e he i hi⟩⟩

theorem metadata_validate_iff (m : CredentialIssuerMetadata) :
    m.validate = .ok () ↔ DistinctIds m.credentialsSupported := by
  have h := idsUnique_iff [] m.credentialsSupported
  simp only [List.not_mem_nil, not_false_eq_true, implies_true, and_true] at h
  rw [← h]
  unfold CredentialIssuerMetadata.validate
  cases idsUnique [] m.credentialsSupported <;>
    simp [validateAll_ok _ CredentialSupported.validate_ok]

theorem find?_first {cs : List CredentialSupported} {id : Str} {e : CredentialSupported} :
    cs.find? (fun c => decide (c.id = some id)) = some e ↔
      ∃ before after, cs = before ++ e :: after ∧ e.id = some id ∧
        ∀ e' ∈ before, e'.id ≠ some id := by
  rw [List.find?_eq_some_iff_append]
  simp only [decide_eq_true_eq, Bool.not_eq_true', decide_eq_false_iff_not]
  constructor
  · rintro ⟨h, as, bs, he, hall⟩; exact ⟨as, bs, he, h, hall⟩
  · rintro ⟨as, bs, he, h, hall⟩; exact ⟨h, as, bs, he, hall⟩

theorem resolve_id_eq (m : CredentialIssuerMetadata) (id : Str) :
    (CredentialOrId.credentialId id).resolve m =
      match m.credentialsSupported.find? (fun c => decide (c.id = some id)) with
      | some e => .ok e.format
      | none => .err (.credentialIdNotInIssuerMetadata id) := by
  simp only [CredentialOrId.resolve]
  cases m.credentialsSupported.find? (fun c => decide (c.id = some id)) <;> rfl

theorem resolve_id_ok_iff (m : CredentialIssuerMetadata) (id : Str) (f : CredentialFormatProfile) :
    (CredentialOrId.credentialId id).resolve m = .ok f ↔ FirstEntry m id f := by
  rw [resolve_id_eq]
  unfold FirstEntry
  cases h : m.credentialsSupported.find? (fun c => decide (c.id = some id)) with
  | none =>
    simp only [reduceCtorEq, false_iff]
    rintro ⟨as, e, bs, he, hid, -⟩
    have := List.find?_eq_none.1 h e (by rw [he]; simp)
    simp [hid] at this
  | some e =>
    simp only [Res.ok.injEq]
    obtain ⟨as, bs, he, hid, hall⟩ := find?_first.1 h
    constructor
    · rintro rfl; exact ⟨as, e, bs, he, hid, rfl, hall⟩
    · rintro ⟨as', e', bs', he', hid', hf, hall'⟩
      have := find?_first.2 ⟨as', bs', he', hid', hall'⟩
      rw [h] at this
      cases this; exact hf

theorem knownId_iff (m : CredentialIssuerMetadata) (id : Str) :
    KnownId m id ↔ ∃ f, (CredentialOrId.credentialId id).resolve m = .ok f := by
  constructor
  · rintro ⟨e, he, hid⟩
    rw [resolve_id_eq]
    cases h : m.credentialsSupported.find? (fun c => decide (c.id = some id)) with
    | none =>
      have := List.find?_eq_none.1 h e he
      simp [hid] at this
    | some e => exact ⟨e.format, rfl⟩
  · rintro ⟨f, hf⟩
    obtain ⟨as, e, bs, he, hid, -⟩ := (resolve_id_ok_iff m id f).1 hf
    exact ⟨e, by rw [he]; simp, hid⟩

theorem resolve_id_unknown (m : CredentialIssuerMetadata) (id : Str) (h : ¬ KnownId m id) :
    (CredentialOrId.credentialId id).resolve m = .err (.credentialIdNotInIssuerMetadata id) := by
  rw [knownId_iff] at h
  rw [resolve_id_eq] at *
  cases hf : m.credentialsSupported.find? (fun c => decide (c.id = some id)) with
  | none => rfl
  | some e => exact absurd ⟨e.format, by simp [hf]⟩ h

theorem resolve_ok_iff (m : CredentialIssuerMetadata) (c : CredentialOrId)
    (f : CredentialFormatProfile) : c.resolve m = .ok f ↔ StandsFor m c f := by
  cases c with
  | credential c => simp [CredentialOrId.resolve, StandsFor]
  | credentialId id => exact resolve_id_ok_iff m id f

theorem resolve_cases (m : CredentialIssuerMetadata) (c : CredentialOrId) :
    (Resolvable m c ∧ ∃ f, c.resolve m = .ok f) ∨
    (∃ id, c = .credentialId id ∧ ¬ KnownId m id ∧
      c.resolve m = .err (.credentialIdNotInIssuerMetadata id)) := by
  cases c with
  | credential c => exact .inl ⟨trivial, c, rfl⟩
  | credentialId id =>
    by_cases h : KnownId m id
    · exact .inl ⟨h, (knownId_iff m id).1 h⟩
    · exact .inr ⟨id, rfl, h, resolve_id_unknown m id h⟩

theorem resolveAll_ok_iff (m : CredentialIssuerMetadata) (cs : CredentialOrIds)
    (fs : List CredentialFormatProfile) :
    CredentialOrIds.resolveAll m cs = .ok fs ↔ List.Forall₂ (StandsFor m) cs fs := by
  induction cs generalizing fs with
  | nil =>
    simp only [CredentialOrIds.resolveAll, Res.ok.injEq]
    constructor
    · rintro rfl; exact .nil
    · intro h; cases h; rfl
  | cons c cs ih =>
    simp only [CredentialOrIds.resolveAll, Res.bind_eq_ok, resolve_ok_iff, ih]
    constructor
    · rintro ⟨f, hf, fs', hfs, h⟩; cases h; exact .cons hf hfs
    · intro h; cases h with | cons hf hfs => exact ⟨_, hf, _, hfs, rfl⟩

theorem resolveAll_cases (m : CredentialIssuerMetadata) (cs : CredentialOrIds) :
    ((∀ c ∈ cs, Resolvable m c) ∧ ∃ fs, CredentialOrIds.resolveAll m cs = .ok fs) ∨
    (∃ id, FirstUnknown m cs id ∧
      CredentialOrIds.resolveAll m cs = .err (.credentialIdNotInIssuerMetadata id)) := by
  induction cs with
  | nil => exact .inl ⟨by simp, [], rfl⟩
  | cons c cs ih =>
    rcases resolve_cases m c with ⟨hr, f, hf⟩ | ⟨id, rfl, hk, he⟩
    · rcases ih with ⟨hall, fs, hfs⟩ | ⟨id, ⟨as, bs, rfl, hb, hk⟩, he⟩
      · exact .inl ⟨by simpa using ⟨hr, hall⟩, f :: fs, by simp [CredentialOrIds.resolveAll, hf, hfs]⟩
      · exact .inr ⟨id, ⟨c :: as, bs, rfl, by simpa using ⟨hr, hb⟩, hk⟩,
          by simp [CredentialOrIds.resolveAll, hf, he]⟩
    · exact .inr ⟨id, ⟨[], cs, rfl, by simp, hk⟩, by simp [CredentialOrIds.resolveAll, he]⟩

theorem firstUnknown_not_all {m : CredentialIssuerMetadata} {cs : CredentialOrIds} {id : Str}
    (h : FirstUnknown m cs id) : ¬ ∀ c ∈ cs, Resolvable m c := by
  obtain ⟨as, bs, rfl, -, hk⟩ := h
  intro hall
  exact hk (hall (.credentialId id) (by simp))

/-! URLs -/

theorem cut_not_mem {c : Char} {s : Str} (h : c ∉ s) : cut c s = (s, none) := by
  induction s with
  | nil => rfl
  | cons x s ih =>
    simp only [List.mem_cons, not_or] at h
    simp [cut, ih h.2, Ne.symm h.1]

theorem cut_append {c : Char} {s t : Str} (h : c ∉ s) : cut c (s ++ c :: t) = (s, some t) := by
  induction s with
  | nil => simp [cut]
  | cons x s ih =>
    simp only [List.mem_cons, not_or] at h
    simp [cut, ih h.2, Ne.symm h.1]

end Oid4vci
