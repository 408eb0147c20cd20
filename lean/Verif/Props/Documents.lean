import Verif.Spec.Documents
import Verif.Lemmas.ShapeText
import Verif.Props.Claims

/-!
C63: documents are read by the documented member names, exactly. C64: what is written is such a document
and survives its text.
-/

namespace Oid4vci

open Spec Serde

/-! ### The pieces -/

theorem slot_iff {kvs : List (Str × Json)} {k : Str} {o : Option Json} :
    field k kvs = some o ↔ Slot kvs k o := by
  cases o with
  | none => exact field_none
  | some v => exact field_some

theorem fields_iff {names : List Str} {kvs : List (Str × Json)} {os : List (Option Json)} :
    fields names kvs = some os ↔ List.Forall₂ (Slot kvs) names os := by
  induction names generalizing os with
  | nil =>
    constructor
    · intro h; cases h; exact .nil
    · intro h; cases h; rfl
  | cons k ks ih =>
    constructor
    · intro h
      cases os with
      | nil => rw [fields] at h; split at h <;> cases h
      | cons o os =>
        obtain ⟨h1, h2⟩ := fields_cons.1 h
        exact .cons (slot_iff.1 h1) (ih.1 h2)
    · intro h
      cases h with
      | cons h1 h2 => exact fields_cons.2 ⟨slot_iff.2 h1, ih.2 h2⟩

theorem struct_iff {names : List Str} {v : Json} {os : List (Option Json)} :
    struct names v = some os ↔ Slots names v os := by
  constructor
  · intro h
    cases v with
    | obj kvs => exact .object kvs os (fields_iff.1 h)
    | arr vs =>
      simp only [struct] at h
      split at h
      · rename_i hl; cases h; exact .array vs hl
      · cases h
    | _ => cases h
  · intro h
    cases h with
    | object kvs os h => exact fields_iff.2 h
    | array vs hl => simp [struct, hl]

theorem structFlat_iff {names : List Str} {v : Json} {os : List (Option Json)}
    {rest : List (Str × Json)} :
    structFlat names v = some (os, rest) ↔ ∃ kvs, v = .obj kvs ∧ List.Forall₂ (Slot kvs) names os ∧
      rest = kvs.filter fun p => decide (p.1 ∉ names) := by
  cases v with
  | obj kvs =>
    simp only [structFlat, Option.map_eq_some_iff, Prod.mk.injEq, Json.obj.injEq]
    constructor
    · rintro ⟨a, h1, rfl, rfl⟩; exact ⟨kvs, rfl, fields_iff.1 h1, rfl⟩
    · rintro ⟨_, rfl, h, rfl⟩; exact ⟨os, fields_iff.2 h, rfl, rfl⟩
  | _ => simp [structFlat]

theorem req_iff {α : Type} {d : De α} {is : Json → α → Prop} (hd : ∀ v a, d v = some a ↔ is v a)
    {o : Option Json} {a : α} : req d o = some a ↔ Required is o a := by
  cases o <;> simp [req, Required, hd]

theorem opt_iff {α : Type} {d : De α} {is : Json → α → Prop} (hd : ∀ v a, d v = some a ↔ is v a)
    (hn : d .null = none) {o : Option Json} {a : Option α} :
    opt d o = some a ↔ Optional is o a := by
  have hopt : ∀ v, v ≠ Json.null → option d v = (d v).map some := by
    intro v hv; cases v <;> simp_all [option]
  have hnull : ∀ a, ¬ is .null a := fun a h => by rw [← hd, hn] at h; cases h
  cases o with
  | none => cases a <;> simp [opt, Optional]
  | some v =>
    by_cases hv : v = .null
    · subst hv
      cases a with
      | none => simp [opt, option, Optional]
      | some a => simp [opt, option, Optional, hnull]
    · cases a with
      | none => simp [opt, hopt v hv, Optional, hv]
      | some a => simp [opt, hopt v hv, Optional, hd]

theorem bool_iff (v : Json) (b : Bool) : Serde.bool v = some b ↔ IsFlag v b := by
  cases v <;> simp [Serde.bool, IsFlag]

theorem text_iff (v : Json) (s : Str) : Serde.string v = some s ↔ IsText v s := string_eq

theorem u32_iff (v : Json) (n : UInt32) : Serde.u32 v = some n ↔ IsU32 v n := by
  cases v with
  | num i =>
    simp only [Serde.u32, IsU32, Json.num.injEq]
    have hn : n.toNat < 2 ^ 32 := n.toNat_lt
    constructor
    · intro h
      split at h
      · rename_i hi
        cases h
        rw [UInt32.toNat_ofNat']
        omega
      · cases h
    · rintro rfl
      rw [if_pos (by omega)]
      simp
  | _ => simp [Serde.u32, IsU32]

theorem u64_iff (v : Json) (n : UInt64) : Serde.u64 v = some n ↔ IsU64 v n := by
  cases v with
  | num i =>
    simp only [Serde.u64, IsU64, Json.num.injEq]
    have hn : n.toNat < 2 ^ 64 := n.toNat_lt
    constructor
    · intro h
      split at h
      · rename_i hi
        cases h
        rw [UInt64.toNat_ofNat']
        omega
      · cases h
    · rintro rfl
      rw [if_pos (by omega)]
      simp
  | _ => simp [Serde.u64, IsU64]

theorem all_iff {α : Type} {d : De α} {is : Json → α → Prop} (hd : ∀ v a, d v = some a ↔ is v a)
    {vs : List Json} {as : List α} : all d vs = some as ↔ List.Forall₂ is vs as := by
  induction vs generalizing as with
  | nil =>
    constructor
    · intro h; cases h; exact .nil
    · intro h; cases h; rfl
  | cons v vs ih =>
    rw [all]
    constructor
    · intro h
      split at h
      · rename_i a as' h1 h2; cases h; exact .cons ((hd _ _).1 h1) (ih.1 h2)
      · cases h
    · intro h
      cases h with
      | cons h1 h2 => rw [(hd _ _).2 h1, ih.2 h2]

theorem vec_iff {α : Type} {d : De α} {is : Json → α → Prop} (hd : ∀ v a, d v = some a ↔ is v a)
    (v : Json) (as : List α) : vec d v = some as ↔ ListOf is v as := by
  cases v with
  | arr vs => simp [vec, ListOf, all_iff hd]
  | _ => simp [vec, ListOf]

theorem eraseDups_snoc (l : List Str) (k : Str) :
    (l ++ [k]).eraseDups = l.eraseDups ++ if k ∈ l then [] else [k] := by
  rw [List.eraseDups_append]
  by_cases h : k ∈ l
  · simp [h, List.removeAll]
  · simp [h, List.removeAll, List.eraseDups_cons]

theorem nodup_eraseDups (l : List Str) : l.eraseDups.Nodup := by
  induction l using List.reverseRecOn with
  | nil => simp
  | append_singleton l k ih =>
    rw [eraseDups_snoc]
    by_cases h : k ∈ l
    · simpa [h] using ih
    · rw [if_neg h, List.nodup_append]
      refine ⟨ih, by simp, ?_⟩
      rintro a ha b hb rfl
      simp at hb
      subst hb
      exact h (List.mem_eraseDups.1 ha)

theorem hinsert_filterMap {α : Type} (ks : List Str) (f : Str → Option (Str × α)) (k : Str) (a : α)
    (hn : ks.Nodup) (hf : ∀ c ∈ ks, ∃ b, f c = some (c, b)) :
    hinsert (ks.filterMap f) k a =
      (ks.filterMap fun c => if c = k then some (k, a) else f c) ++ if k ∈ ks then [] else [(k, a)] := by
  induction ks with
  | nil => simp [hinsert]
  | cons c ks ih =>
    obtain ⟨b, hb⟩ := hf c (by simp)
    obtain ⟨h1, h2⟩ := List.nodup_cons.1 hn
    have ih := ih h2 fun c hc => hf c (by simp [hc])
    rw [List.filterMap_cons_some hb, hinsert]
    by_cases h : k = c
    · subst h
      have : ks.filterMap (fun c => if c = k then some (k, a) else f c) = ks.filterMap f :=
        List.filterMap_congr fun c hc => if_neg (by rintro rfl; exact h1 hc)
      simp [this]
    · rw [if_neg h, ih, List.filterMap_cons_some (b := (c, b)) (by simp [Ne.symm h, hb])]
      simp [h]

theorem lastWins_snoc {α : Type} (l : List (Str × α)) (k : Str) (a : α) :
    lastWins (l ++ [(k, a)]) = hinsert (lastWins l) k a := by
  unfold lastWins
  rw [hinsert_filterMap _ _ _ _ (nodup_eraseDups _)]
  · have : (fun c => List.find? (fun p => decide (p.1 = c)) (l ++ [(k, a)]).reverse) =
        fun c => if c = k then some (k, a)
          else List.find? (fun p => decide (p.1 = c)) l.reverse := by
      funext c
      rw [List.reverse_append, List.reverse_singleton, List.singleton_append, List.find?_cons]
      by_cases h : c = k
      · simp [h]
      · simp [h, Ne.symm h]
    rw [List.map_append, List.map_singleton, eraseDups_snoc, List.filterMap_append, this]
    congr 1
    by_cases h : k ∈ l.map Prod.fst <;> simp [h, List.mem_eraseDups]
  · intro c hc
    rw [List.mem_eraseDups, List.mem_map] at hc
    obtain ⟨p, hp, rfl⟩ := hc
    cases hq : List.find? (fun q => decide (q.1 = p.1)) l.reverse with
    | none => simpa using List.find?_eq_none.1 hq p (by simpa using hp)
    | some q =>
      have := List.find?_some hq
      simp only [decide_eq_true_eq] at this
      exact ⟨q.2, by rw [← this]⟩

theorem entries_iff {α : Type} {d : De α} {is : Json → α → Prop} (hd : ∀ v a, d v = some a ↔ is v a)
    {acc : List (Str × α)} {kvs : List (Str × Json)} {m : HMap α} :
    entries d (lastWins acc) kvs = some m ↔
      ∃ as, List.Forall₂ (fun p q => p.1 = q.1 ∧ is p.2 q.2) kvs as ∧ m = lastWins (acc ++ as) := by
  induction kvs generalizing acc with
  | nil =>
    simp only [entries, Option.some.injEq]
    constructor
    · rintro rfl; exact ⟨[], .nil, by simp⟩
    · rintro ⟨as, h, rfl⟩; cases h; simp
  | cons p kvs ih =>
    obtain ⟨k, v⟩ := p
    rw [entries]
    constructor
    · intro h
      split at h
      · rename_i a ha
        rw [← lastWins_snoc, ih] at h
        obtain ⟨as, h1, rfl⟩ := h
        exact ⟨(k, a) :: as, .cons ⟨rfl, (hd _ _).1 ha⟩ h1, by simp⟩
      · cases h
    · rintro ⟨as, h, rfl⟩
      cases h with
      | @cons _ q _ as h1 h2 =>
        obtain ⟨k', a⟩ := q
        obtain ⟨rfl, h1⟩ := h1
        simp only [(hd _ _).2 h1]
        rw [← lastWins_snoc, ih]
        exact ⟨as, h2, by simp⟩

theorem hmap_iff {α : Type} {d : De α} {is : Json → α → Prop} (hd : ∀ v a, d v = some a ↔ is v a)
    (v : Json) (m : HMap α) : hmap d v = some m ↔ MapOf is v m := by
  cases v with
  | obj kvs =>
    have := entries_iff hd (acc := []) (kvs := kvs) (m := m)
    simp only [show lastWins ([] : List (Str × α)) = [] from rfl, List.nil_append] at this
    simp only [hmap, this, MapOf, Json.obj.injEq]
    constructor
    · rintro ⟨as, h⟩; exact ⟨kvs, as, rfl, h⟩
    · rintro ⟨_, as, rfl, h⟩; exact ⟨as, h⟩
  | _ => simp [hmap, MapOf]

theorem tagged_iff {tag : Str} {v t c : Json} : tagged tag v = some (t, c) ↔ Tagged tag v t c := by
  constructor
  · intro h
    cases v with
    | obj kvs =>
      simp only [tagged] at h
      split at h
      · rename_i w hw; cases h; exact .object kvs t (field_some.1 hw)
      · cases h
    | arr vs =>
      cases vs with
      | nil => cases h
      | cons a vs => cases h; exact .array _ _
    | _ => cases h
  · intro h
    cases h with
    | object kvs _ hs => simp only [tagged, field_some.2 hs]
    | array => rfl

/-! ### The documents -/

/-- C63. A claim's name in some language. -/
theorem C63_subjectDisplay (v : Json) (t : CredentialSubjectDisplay) :
    CredentialSubjectDisplay.de v = some t ↔ SubjectDisplayDoc v t := by
  unfold CredentialSubjectDisplay.de
  constructor
  · intro h
    split at h
    · rename_i hs
      simp only [Option.bind_eq_bind, Option.bind_eq_some_iff] at h
      obtain ⟨a0, e0, a1, e1, h⟩ := h
      cases h
      exact ⟨_, _, struct_iff.1 hs, (opt_iff text_iff rfl).1 e0, (opt_iff text_iff rfl).1 e1⟩
    · cases h
  · rintro ⟨_, _, hs, h0, h1⟩
    rw [struct_iff.2 hs]
    simp only [(opt_iff text_iff rfl).2 h0, (opt_iff text_iff rfl).2 h1,
      Option.bind_eq_bind, Option.bind_some]

/-- C63. A claim of the subject. -/
theorem C63_subject (v : Json) (t : CredentialSubject) :
    CredentialSubject.de v = some t ↔ SubjectDoc v t := by
  unfold CredentialSubject.de
  constructor
  · intro h
    split at h
    · rename_i hs
      simp only [Option.bind_eq_bind, Option.bind_eq_some_iff] at h
      obtain ⟨a0, e0, a1, e1, a2, e2, h⟩ := h
      cases h
      exact ⟨_, _, _, struct_iff.1 hs, (opt_iff bool_iff rfl).1 e0, (opt_iff text_iff rfl).1 e1, (opt_iff (vec_iff C63_subjectDisplay) rfl).1 e2⟩
    · cases h
  · rintro ⟨_, _, _, hs, h0, h1, h2⟩
    rw [struct_iff.2 hs]
    simp only [(opt_iff bool_iff rfl).2 h0, (opt_iff text_iff rfl).2 h1, (opt_iff (vec_iff C63_subjectDisplay) rfl).2 h2,
      Option.bind_eq_bind, Option.bind_some]

theorem tokenType_iff (v : Json) (t : AccessTokenType) :
    AccessTokenType.de v = some t ↔ TokenTypeDoc v t := by
  cases t
  unfold AccessTokenType.de TokenTypeDoc
  split
  · simp
  · rename_i k; simp
  · rename_i h1 h2
    simp only [reduceCtorEq, false_iff, not_or]
    exact ⟨fun h => h1 _ h, fun h => h2 _ h⟩

/-- C63. A JSON-LD context. -/
theorem C63_context (v : Json) (t : LinkedDataContext) :
    LinkedDataContext.de v = some t ↔ ContextDoc v t := by
  have hv : ∀ (v j : Json), some (value v) = some j ↔ j = Serde.value v := fun v j => by
    simp [eq_comm]
  unfold LinkedDataContext.de
  split
  · rename_i s hs
    have hs := (text_iff _ _).1 hs
    cases hs
    cases t with
    | string s' => simp [ContextDoc]
    | map m => simp [ContextDoc, MapOf]
  · rename_i hs
    rw [Option.map_eq_some_iff]
    cases t with
    | string s' =>
      simp only [ContextDoc, reduceCtorEq, and_false, exists_false, false_iff]
      rintro rfl
      cases hs
    | map m =>
      simp only [LinkedDataContext.map.injEq, exists_eq_right, ContextDoc]
      exact hmap_iff hv _ _

theorem deJwt_iff (v : Json) (t : List Str × Option (HMap CredentialSubject) × Option (List Str)) :
    CredentialFormatProfile.deJwt v = some t ↔ JwtContent v t.1 t.2.1 t.2.2 := by
  unfold CredentialFormatProfile.deJwt
  constructor
  · intro h
    split at h
    · rename_i hs
      simp only [Option.bind_eq_bind, Option.bind_eq_some_iff] at h
      obtain ⟨a0, e0, a1, e1, a2, e2, h⟩ := h
      cases h
      exact ⟨_, _, _, struct_iff.1 hs, (req_iff (vec_iff text_iff)).1 e0,
        (opt_iff (hmap_iff C63_subject) rfl).1 e1, (opt_iff (vec_iff text_iff) rfl).1 e2⟩
    · cases h
  · rintro ⟨_, _, _, hs, h0, h1, h2⟩
    rw [struct_iff.2 hs]
    simp only [(req_iff (vec_iff text_iff)).2 h0, (opt_iff (hmap_iff C63_subject) rfl).2 h1,
      (opt_iff (vec_iff text_iff) rfl).2 h2, Option.bind_eq_bind, Option.bind_some]

theorem deLdp_iff (v : Json) (t : CredentialFormatProfile) :
    CredentialFormatProfile.deLdp v = some t ↔
      ∃ ctx types cs order, t = .ldpVc ctx types cs order ∧
      ∃ a b c d, Slots [str! "@context", str! "types", str! "credentialSubject", str! "order"]
          v [a, b, c, d] ∧
        Required (ListOf ContextDoc) a ctx ∧ Required (ListOf IsText) b types ∧
        Optional (MapOf SubjectDoc) c cs ∧ Optional (ListOf IsText) d order := by
  unfold CredentialFormatProfile.deLdp
  constructor
  · intro h
    split at h
    · rename_i hs
      simp only [Option.bind_eq_bind, Option.bind_eq_some_iff] at h
      obtain ⟨a0, e0, a1, e1, a2, e2, a3, e3, h⟩ := h
      cases h
      exact ⟨_, _, _, _, rfl, _, _, _, _, struct_iff.1 hs, (req_iff (vec_iff C63_context)).1 e0,
        (req_iff (vec_iff text_iff)).1 e1,
        (opt_iff (hmap_iff C63_subject) rfl).1 e2, (opt_iff (vec_iff text_iff) rfl).1 e3⟩
    · cases h
  · rintro ⟨_, _, _, _, rfl, _, _, _, _, hs, h0, h1, h2, h3⟩
    rw [struct_iff.2 hs]
    simp only [(req_iff (vec_iff C63_context)).2 h0, (req_iff (vec_iff text_iff)).2 h1,
      (opt_iff (hmap_iff C63_subject) rfl).2 h2,
      (opt_iff (vec_iff text_iff) rfl).2 h3, Option.bind_eq_bind, Option.bind_some]

theorem deMdoc_iff (v : Json) (t : CredentialFormatProfile) :
    CredentialFormatProfile.deMdoc v = some t ↔
      ∃ doctype claims order, t = .msoMdoc doctype claims order ∧
      ∃ a b c, Slots [str! "doctype", str! "claims", str! "order"] v [a, b, c] ∧
        Required IsText a doctype ∧ Optional (MapOf SubjectDoc) b claims ∧
        Optional (ListOf IsText) c order := by
  unfold CredentialFormatProfile.deMdoc
  constructor
  · intro h
    split at h
    · rename_i hs
      simp only [Option.bind_eq_bind, Option.bind_eq_some_iff] at h
      obtain ⟨a0, e0, a1, e1, a2, e2, h⟩ := h
      cases h
      exact ⟨_, _, _, rfl, _, _, _, struct_iff.1 hs, (req_iff text_iff).1 e0,
        (opt_iff (hmap_iff C63_subject) rfl).1 e1, (opt_iff (vec_iff text_iff) rfl).1 e2⟩
    · cases h
  · rintro ⟨_, _, _, rfl, _, _, _, hs, h0, h1, h2⟩
    rw [struct_iff.2 hs]
    simp only [(req_iff text_iff).2 h0, (opt_iff (hmap_iff C63_subject) rfl).2 h1,
      (opt_iff (vec_iff text_iff) rfl).2 h2, Option.bind_eq_bind, Option.bind_some]

theorem variant_iff (names : List Str) (hn : names.Nodup) (b : Bool) (t : Json) (i : Nat) :
    variant names b t = some i ↔ ∃ name, names[i]? = some name ∧ IsFormat b name i t := by
  cases t with
  | str s =>
    simp only [variant, IsFormat, Json.str.injEq, reduceCtorEq, and_false, or_false, List.findIdx?_eq_some_iff_getElem]
    constructor
    · rintro ⟨h, h1, -⟩
      exact ⟨names[i], by simp [h], by simpa using (eq_of_beq h1).symm⟩
    · rintro ⟨_, h, rfl⟩
      obtain ⟨hi, h⟩ := List.getElem?_eq_some_iff.1 h
      refine ⟨hi, by simp [h], fun j hj => ?_⟩
      simp only [beq_iff_eq, ← h]
      intro he
      have := (List.Nodup.getElem_inj_iff hn).1 he
      omega
  | num n =>
    simp only [variant, IsFormat, reduceCtorEq, false_or, Json.num.injEq]
    constructor
    · intro h
      split at h
      · rename_i hc
        simp only [Bool.and_eq_true, decide_eq_true_eq] at hc
        cases h
        exact ⟨names[n.toNat]'(by omega), by simp, hc.1.1, by omega⟩
      · cases h
    · rintro ⟨name, h, rfl, rfl⟩
      obtain ⟨hi, h⟩ := List.getElem?_eq_some_iff.1 h
      rw [if_pos (by simp; omega)]
      simp
  | _ => simp [variant, IsFormat]

theorem variants_nodup : CredentialFormatProfile.variantNames.Nodup := by decide

/-- C63. A credential format profile. -/
theorem C63_credential (b : Bool) (v : Json) (t : CredentialFormatProfile) :
    CredentialFormatProfile.de b v = some t ↔ CredentialDoc b v t := by
  have hv := fun t i => variant_iff _ variants_nodup b t i
  have inj := fun {t i j} (h : variant CredentialFormatProfile.variantNames b t = some i)
    (h' : variant CredentialFormatProfile.variantNames b t = some j) => Option.some.inj (h.symm.trans h')
  unfold CredentialFormatProfile.de
  constructor
  · intro h
    split at h
    · cases h
    · rename_i tag content ht
      refine ⟨tag, content, tagged_iff.1 ht, ?_⟩
      split at h
      · rename_i hi
        obtain ⟨name, hn, hf⟩ := (hv _ _).1 hi
        cases hn
        obtain ⟨p, hp, rfl⟩ := Option.map_eq_some_iff.1 h
        exact ⟨hf, (deJwt_iff _ _).1 hp⟩
      · rename_i hi
        obtain ⟨name, hn, hf⟩ := (hv _ _).1 hi
        cases hn
        obtain ⟨p, hp, rfl⟩ := Option.map_eq_some_iff.1 h
        exact ⟨hf, (deJwt_iff _ _).1 hp⟩
      · rename_i hi
        obtain ⟨name, hn, hf⟩ := (hv _ _).1 hi
        cases hn
        obtain ⟨_, _, _, _, rfl, h'⟩ := (deLdp_iff _ _).1 h
        exact ⟨hf, h'⟩
      · rename_i hi
        obtain ⟨name, hn, hf⟩ := (hv _ _).1 hi
        cases hn
        obtain ⟨_, _, _, rfl, h'⟩ := (deMdoc_iff _ _).1 h
        exact ⟨hf, h'⟩
      · cases h
  · rintro ⟨tag, content, ht, h⟩
    rw [tagged_iff.2 ht]
    dsimp only
    cases t with
    | jwtVcJson types cs order =>
      rw [(hv tag 0).2 ⟨_, rfl, h.1⟩]
      exact Option.map_eq_some_iff.2 ⟨(types, cs, order), (deJwt_iff _ _).2 h.2, rfl⟩
    | jwtVcJsonLd types cs order =>
      rw [(hv tag 1).2 ⟨_, rfl, h.1⟩]
      exact Option.map_eq_some_iff.2 ⟨(types, cs, order), (deJwt_iff _ _).2 h.2, rfl⟩
    | ldpVc ctx types cs order =>
      rw [(hv tag 2).2 ⟨_, rfl, h.1⟩]
      exact (deLdp_iff _ _).2 ⟨_, _, _, _, rfl, h.2⟩
    | msoMdoc doctype cs order =>
      rw [(hv tag 3).2 ⟨_, rfl, h.1⟩]
      exact (deMdoc_iff _ _).2 ⟨_, _, _, rfl, h.2⟩

/-- C63. An entry of an offer. -/
theorem C63_entry (v : Json) (t : CredentialOrId) :
    CredentialOrId.de v = some t ↔ EntryDoc v t := by
  unfold CredentialOrId.de
  split
  · rename_i s hs
    have hs := (text_iff _ _).1 hs
    cases hs
    cases t with
    | credentialId s' => simp [EntryDoc]
    | credential c =>
      simp only [Option.some.injEq, reduceCtorEq, EntryDoc, false_iff]
      rintro ⟨_, _, h, -⟩
      cases h
  · rename_i hs
    rw [Option.map_eq_some_iff]
    cases t with
    | credentialId s' =>
      simp only [EntryDoc, reduceCtorEq, and_false, exists_false, false_iff]
      rintro rfl
      cases hs
    | credential c =>
      simp only [CredentialOrId.credential.injEq, exists_eq_right, EntryDoc]
      exact C63_credential _ _ _

/-- C63. The authorized grant. -/
theorem C63_authorized (v : Json) (t : AuthorizedCodeFlow) :
    AuthorizedCodeFlow.de v = some t ↔ AuthorizedDoc v t := by
  unfold AuthorizedCodeFlow.de
  constructor
  · intro h
    split at h
    · rename_i hs
      obtain ⟨a, e, rfl⟩ := Option.map_eq_some_iff.1 h
      exact ⟨_, struct_iff.1 hs, (opt_iff text_iff rfl).1 e⟩
    · cases h
  · rintro ⟨_, hs, h⟩
    rw [struct_iff.2 hs]
    simp only [(opt_iff text_iff rfl).2 h, Option.map_some]

/-- C63. The pre-authorized grant. -/
theorem C63_preAuthorized (v : Json) (t : PreAuthorizedCodeFlow) :
    PreAuthorizedCodeFlow.de v = some t ↔ PreAuthorizedDoc v t := by
  unfold PreAuthorizedCodeFlow.de
  constructor
  · intro h
    split at h
    · rename_i hs
      simp only [Option.bind_eq_bind, Option.bind_eq_some_iff] at h
      obtain ⟨a0, e0, a1, e1, h⟩ := h
      cases h
      exact ⟨_, _, struct_iff.1 hs, (req_iff text_iff).1 e0, (opt_iff bool_iff rfl).1 e1⟩
    · cases h
  · rintro ⟨_, _, hs, h0, h1⟩
    rw [struct_iff.2 hs]
    simp only [(req_iff text_iff).2 h0, (opt_iff bool_iff rfl).2 h1,
      Option.bind_eq_bind, Option.bind_some]

/-- C63. The grants of an offer. -/
theorem C63_grants (v : Json) (t : CredentialOfferGrants) :
    CredentialOfferGrants.de v = some t ↔ GrantsDoc v t := by
  unfold CredentialOfferGrants.de
  constructor
  · intro h
    split at h
    · rename_i hs
      simp only [Option.bind_eq_bind, Option.bind_eq_some_iff] at h
      obtain ⟨a0, e0, a1, e1, h⟩ := h
      cases h
      exact ⟨_, _, struct_iff.1 hs, (opt_iff C63_authorized rfl).1 e0, (opt_iff C63_preAuthorized rfl).1 e1⟩
    · cases h
  · rintro ⟨_, _, hs, h0, h1⟩
    rw [struct_iff.2 hs]
    simp only [(opt_iff C63_authorized rfl).2 h0, (opt_iff C63_preAuthorized rfl).2 h1,
      Option.bind_eq_bind, Option.bind_some]

/-- C63. A credential offer. -/
theorem C63_offer (v : Json) (t : CredentialOffer) :
    CredentialOffer.de v = some t ↔ OfferDoc v t := by
  unfold CredentialOffer.de
  constructor
  · intro h
    split at h
    · rename_i hs
      simp only [Option.bind_eq_bind, Option.bind_eq_some_iff] at h
      obtain ⟨a0, e0, a1, e1, a2, e2, h⟩ := h
      cases h
      exact ⟨_, _, _, struct_iff.1 hs, (req_iff text_iff).1 e0, (req_iff (vec_iff C63_entry)).1 e1, (req_iff C63_grants).1 e2⟩
    · cases h
  · rintro ⟨_, _, _, hs, h0, h1, h2⟩
    rw [struct_iff.2 hs]
    simp only [(req_iff text_iff).2 h0, (req_iff (vec_iff C63_entry)).2 h1, (req_iff C63_grants).2 h2,
      Option.bind_eq_bind, Option.bind_some]

theorem dePre_iff (v : Json) (t : GrantType) :
    GrantType.dePre v = some t ↔ ∃ code pin, t = .preAuthorizedCodeFlow code pin ∧
      ∃ a b, Slots [str! "pre_authorized_code", str! "user_pin"] v [a, b] ∧
        Required IsText a code ∧ Optional IsU64 b pin := by
  unfold GrantType.dePre
  constructor
  · intro h
    split at h
    · rename_i hs
      simp only [Option.bind_eq_bind, Option.bind_eq_some_iff] at h
      obtain ⟨a0, e0, a1, e1, h⟩ := h
      cases h
      exact ⟨_, _, rfl, _, _, struct_iff.1 hs, (req_iff text_iff).1 e0, (opt_iff u64_iff rfl).1 e1⟩
    · cases h
  · rintro ⟨_, _, rfl, _, _, hs, h0, h1⟩
    rw [struct_iff.2 hs]
    simp only [(req_iff text_iff).2 h0, (opt_iff u64_iff rfl).2 h1, Option.bind_eq_bind,
      Option.bind_some]

/-- C63. The grant of a token request. -/
theorem C63_grant (v : Json) (t : GrantType) : GrantType.de v = some t ↔ GrantDoc v t := by
  have hv := fun t i => variant_iff GrantType.variantNames (by decide) false t i
  have hf : ∀ {name i t}, IsFormat false name i t ↔ t = .str name := by simp [IsFormat]
  unfold GrantType.de
  constructor
  · intro h
    split at h
    · cases h
    · rename_i tag content ht
      refine ⟨tag, content, tagged_iff.1 ht, ?_⟩
      split at h
      · rename_i hi
        obtain ⟨name, hn, h0⟩ := (hv _ _).1 hi
        cases hn
        unfold GrantType.deUnit at h
        split at h
        · cases h; exact ⟨hf.1 h0, .inl ⟨_, rfl⟩⟩
        · cases h; exact ⟨hf.1 h0, .inr rfl⟩
        · cases h
      · rename_i hi
        obtain ⟨name, hn, h0⟩ := (hv _ _).1 hi
        cases hn
        obtain ⟨_, _, rfl, h'⟩ := (dePre_iff _ _).1 h
        exact ⟨hf.1 h0, h'⟩
      · cases h
  · rintro ⟨tag, content, ht, h⟩
    rw [tagged_iff.2 ht]
    dsimp only
    cases t with
    | authorizedCodeFlow =>
      obtain ⟨h0, h⟩ := h
      rw [(hv tag 0).2 ⟨_, rfl, hf.2 h0⟩]
      rcases h with ⟨_, rfl⟩ | rfl <;> rfl
    | preAuthorizedCodeFlow code pin =>
      rw [(hv tag 1).2 ⟨_, rfl, hf.2 h.1⟩]
      exact (dePre_iff _ _).2 ⟨_, _, rfl, h.2⟩

/-- C63. A token request. -/
theorem C63_tokenRequest (v : Json) (t : AccessTokenRequest) :
    AccessTokenRequest.de v = some t ↔ TokenRequestDoc v t := by
  unfold AccessTokenRequest.de
  constructor
  · intro h
    split at h
    · rename_i hs
      obtain ⟨a, e, rfl⟩ := Option.map_eq_some_iff.1 h
      exact ⟨_, struct_iff.1 hs, (req_iff C63_grant).1 e⟩
    · cases h
  · rintro ⟨_, hs, h⟩
    rw [struct_iff.2 hs]
    simp only [(req_iff C63_grant).2 h, Option.map_some]

/-- C63. The proof of a credential request. -/
theorem C63_proof (v : Json) (t : CredentialRequestProof) :
    CredentialRequestProof.de v = some t ↔ ProofDoc v t := by
  unfold CredentialRequestProof.de
  constructor
  · intro h
    split at h
    · rename_i a b hs
      simp only [Option.bind_eq_bind, Option.bind_eq_some_iff] at h
      obtain ⟨a0, e0, a1, e1, h⟩ := h
      cases h
      refine ⟨_, _, struct_iff.1 hs, ?_, (req_iff text_iff).1 e1⟩
      cases a with
      | none => cases e0; exact .inr ⟨rfl, rfl⟩
      | some w => exact .inl ⟨w, rfl, (text_iff _ _).1 e0⟩
    · cases h
  · rintro ⟨_, _, hs, h0, h1⟩
    rw [struct_iff.2 hs]
    obtain ⟨pt, jwt⟩ := t
    rcases h0 with ⟨w, rfl, h0⟩ | ⟨rfl, h0⟩
    · simp only [dflt, (text_iff _ _).2 h0, (req_iff text_iff).2 h1, Option.bind_eq_bind,
        Option.bind_some]
    · cases h0
      simp only [dflt, (req_iff text_iff).2 h1, Option.bind_eq_bind, Option.bind_some]
      rfl

/-- C63. A credential request. -/
theorem C63_request (v : Json) (t : CredentialRequest) :
    CredentialRequest.de v = some t ↔ RequestDoc v t := by
  unfold CredentialRequest.de
  have hfil : ∀ kvs : List (Str × Json), (kvs.filter fun p => decide (p.1 ∉ [str! "proof"])) =
      kvs.filter fun p => decide (p.1 ≠ str! "proof") := fun kvs => by simp only [List.mem_singleton]
  constructor
  · intro h
    split at h
    · rename_i hs
      simp only [Option.bind_eq_bind, Option.bind_eq_some_iff] at h
      obtain ⟨a0, e0, a1, e1, h⟩ := h
      cases h
      obtain ⟨kvs, rfl, hf, rfl⟩ := structFlat_iff.1 hs
      cases hf with
      | cons hf _ =>
        rw [hfil] at e1
        exact ⟨kvs, _, rfl, hf, (opt_iff C63_proof rfl).1 e0, (C63_credential _ _ _).1 e1⟩
    · cases h
  · rintro ⟨kvs, proof, rfl, hf, h0, h1⟩
    rw [structFlat_iff.2 ⟨kvs, rfl, .cons hf .nil, rfl⟩]
    rw [← hfil] at h1
    simp only [(opt_iff C63_proof rfl).2 h0, (C63_credential _ _ _).2 h1, Option.bind_eq_bind,
      Option.bind_some]

/-- C63. The credential of a credential response. -/
theorem C63_issued (v : Json) (t : CredentialFormatProfileOrEncoded) :
    CredentialFormatProfileOrEncoded.de v = some t ↔ IssuedDoc v t := by
  unfold CredentialFormatProfileOrEncoded.de
  constructor
  · intro h
    split at h
    · split at h
      · rename_i hk
        subst hk
        obtain ⟨c, hc, rfl⟩ := Option.map_eq_some_iff.1 h
        exact ⟨_, rfl, (C63_credential _ _ _).1 hc⟩
      · split at h
        · rename_i hk
          subst hk
          obtain ⟨c, hc, rfl⟩ := Option.map_eq_some_iff.1 h
          rw [(text_iff _ _).1 hc]
          rfl
        · cases h
    · cases h
  · intro h
    cases t with
    | credentialFormatProfile c =>
      obtain ⟨w, rfl, h⟩ := h
      simp only [↓reduceIte, (C63_credential _ _ _).2 h, Option.map_some]
    | encoded s =>
      rw [show v = _ from h]
      rfl

/-- C63. A token response. -/
theorem C63_tokenResponse (v : Json) (t : AccessTokenSuccessResponse) :
    AccessTokenSuccessResponse.de v = some t ↔ TokenResponseDoc v t := by
  unfold AccessTokenSuccessResponse.de
  constructor
  · intro h
    split at h
    · rename_i hs
      simp only [Option.bind_eq_bind, Option.bind_eq_some_iff] at h
      obtain ⟨a0, e0, a1, e1, a2, e2, a3, e3, a4, e4, a5, e5, a6, e6, a7, e7, h⟩ := h
      cases h
      exact ⟨_, _, _, _, _, _, _, _, struct_iff.1 hs, (req_iff text_iff).1 e0, (req_iff tokenType_iff).1 e1, (opt_iff u32_iff rfl).1 e2, (opt_iff text_iff rfl).1 e3, (opt_iff text_iff rfl).1 e4, (opt_iff u32_iff rfl).1 e5, (opt_iff bool_iff rfl).1 e6, (opt_iff u32_iff rfl).1 e7⟩
    · cases h
  · rintro ⟨_, _, _, _, _, _, _, _, hs, h0, h1, h2, h3, h4, h5, h6, h7⟩
    rw [struct_iff.2 hs]
    simp only [(req_iff text_iff).2 h0, (req_iff tokenType_iff).2 h1, (opt_iff u32_iff rfl).2 h2, (opt_iff text_iff rfl).2 h3, (opt_iff text_iff rfl).2 h4, (opt_iff u32_iff rfl).2 h5, (opt_iff bool_iff rfl).2 h6, (opt_iff u32_iff rfl).2 h7,
      Option.bind_eq_bind, Option.bind_some]

/-- C63. A credential response. -/
theorem C63_response (v : Json) (t : CredentialSuccessResponse) :
    CredentialSuccessResponse.de v = some t ↔ ResponseDoc v t := by
  unfold CredentialSuccessResponse.de
  constructor
  · intro h
    split at h
    · rename_i hs
      simp only [Option.bind_eq_bind, Option.bind_eq_some_iff] at h
      obtain ⟨a0, e0, a1, e1, a2, e2, a3, e3, a4, e4, h⟩ := h
      cases h
      exact ⟨_, _, _, _, _, struct_iff.1 hs, (req_iff text_iff).1 e0, (opt_iff C63_issued rfl).1 e1, (opt_iff text_iff rfl).1 e2, (opt_iff text_iff rfl).1 e3, (opt_iff u32_iff rfl).1 e4⟩
    · cases h
  · rintro ⟨_, _, _, _, _, hs, h0, h1, h2, h3, h4⟩
    rw [struct_iff.2 hs]
    simp only [(req_iff text_iff).2 h0, (opt_iff C63_issued rfl).2 h1, (opt_iff text_iff rfl).2 h2, (opt_iff text_iff rfl).2 h3, (opt_iff u32_iff rfl).2 h4,
      Option.bind_eq_bind, Option.bind_some]


/-- C63. A logo. -/
theorem C63_logo (v : Json) (t : DisplayLogo) :
    DisplayLogo.de v = some t ↔ LogoDoc v t := by
  unfold DisplayLogo.de
  constructor
  · intro h
    split at h
    · rename_i hs
      simp only [Option.bind_eq_bind, Option.bind_eq_some_iff] at h
      obtain ⟨a0, e0, a1, e1, h⟩ := h
      cases h
      exact ⟨_, _, struct_iff.1 hs, (opt_iff text_iff rfl).1 e0, (opt_iff text_iff rfl).1 e1⟩
    · cases h
  · rintro ⟨_, _, hs, h0, h1⟩
    rw [struct_iff.2 hs]
    simp only [(opt_iff text_iff rfl).2 h0, (opt_iff text_iff rfl).2 h1,
      Option.bind_eq_bind, Option.bind_some]

/-- C63. Display properties. -/
theorem C63_display (v : Json) (t : DisplayProperties) :
    DisplayProperties.de v = some t ↔ DisplayDoc v t := by
  unfold DisplayProperties.de
  constructor
  · intro h
    split at h
    · rename_i hs
      simp only [Option.bind_eq_bind, Option.bind_eq_some_iff] at h
      obtain ⟨a0, e0, a1, e1, a2, e2, a3, e3, a4, e4, a5, e5, h⟩ := h
      cases h
      exact ⟨_, _, _, _, _, _, struct_iff.1 hs, (req_iff text_iff).1 e0, (opt_iff text_iff rfl).1 e1, (opt_iff C63_logo rfl).1 e2, (opt_iff text_iff rfl).1 e3, (opt_iff text_iff rfl).1 e4, (opt_iff text_iff rfl).1 e5⟩
    · cases h
  · rintro ⟨_, _, _, _, _, _, hs, h0, h1, h2, h3, h4, h5⟩
    rw [struct_iff.2 hs]
    simp only [(req_iff text_iff).2 h0, (opt_iff text_iff rfl).2 h1, (opt_iff C63_logo rfl).2 h2, (opt_iff text_iff rfl).2 h3, (opt_iff text_iff rfl).2 h4, (opt_iff text_iff rfl).2 h5,
      Option.bind_eq_bind, Option.bind_some]

/-- C63. A supported credential. -/
theorem C63_supported (v : Json) (t : CredentialSupported) :
    CredentialSupported.de v = some t ↔ SupportedDoc v t := by
  unfold CredentialSupported.de
  constructor
  · intro h
    split at h
    · rename_i hs
      simp only [Option.bind_eq_bind, Option.bind_eq_some_iff] at h
      obtain ⟨a0, e0, a1, e1, a2, e2, a3, e3, a4, e4, h⟩ := h
      cases h
      obtain ⟨kvs, rfl, hf, rfl⟩ := structFlat_iff.1 hs
      exact ⟨kvs, _, _, _, _, rfl, hf, (opt_iff text_iff rfl).1 e0,
        (opt_iff (vec_iff text_iff) rfl).1 e1, (opt_iff (vec_iff text_iff) rfl).1 e2,
        (opt_iff (vec_iff C63_display) rfl).1 e3, (C63_credential _ _ _).1 e4⟩
    · cases h
  · rintro ⟨kvs, _, _, _, _, rfl, hf, h0, h1, h2, h3, h4⟩
    simp only [supportedNames] at hf h4
    rw [structFlat_iff.2 ⟨kvs, rfl, hf, rfl⟩]
    simp only [(opt_iff text_iff rfl).2 h0, (opt_iff (vec_iff text_iff) rfl).2 h1,
      (opt_iff (vec_iff text_iff) rfl).2 h2, (opt_iff (vec_iff C63_display) rfl).2 h3,
      Option.bind_eq_bind, Option.bind_some]
    exact Option.bind_eq_some_iff.2 ⟨_, (C63_credential _ _ _).2 h4, rfl⟩

/-- C63. Issuer metadata. -/
theorem C63_metadata (v : Json) (t : CredentialIssuerMetadata) :
    CredentialIssuerMetadata.de v = some t ↔ MetadataDoc v t := by
  have hv : ∀ (v j : Json), some (value v) = some j ↔ j = Serde.value v := fun v j => by
    simp [eq_comm]
  unfold CredentialIssuerMetadata.de
  constructor
  · intro h
    split at h
    · rename_i hs
      simp only [Option.bind_eq_bind, Option.bind_eq_some_iff] at h
      obtain ⟨a0, e0, a1, e1, a2, e2, a3, e3, a4, e4, a5, e5, h⟩ := h
      cases h
      obtain ⟨kvs, rfl, hf, rfl⟩ := structFlat_iff.1 hs
      exact ⟨kvs, _, _, _, _, _, rfl, hf, (req_iff text_iff).1 e0, (opt_iff text_iff rfl).1 e1,
        (req_iff text_iff).1 e2, (opt_iff text_iff rfl).1 e3,
        (req_iff (vec_iff C63_supported)).1 e4, _, rfl, (hmap_iff hv _ _).1 e5⟩
    · cases h
  · rintro ⟨kvs, _, _, _, _, _, rfl, hf, h0, h1, h2, h3, h4, a, h5, h6⟩
    simp only [metadataFields] at hf h6
    rw [structFlat_iff.2 ⟨kvs, rfl, hf, rfl⟩]
    have h6 : entries (fun j => some (value j)) [] _ = some a := (hmap_iff hv _ _).2 h6
    simp only [(req_iff text_iff).2 h0, (opt_iff text_iff rfl).2 h1,
      (req_iff text_iff).2 h2, (opt_iff text_iff rfl).2 h3,
      (req_iff (vec_iff C63_supported)).2 h4, Option.bind_eq_bind, Option.bind_some]
    obtain ⟨_, _, _, _, _, _⟩ := t
    cases h5
    exact Option.bind_eq_some_iff.2 ⟨_, h6, rfl⟩

theorem ofName_iff (s : Str) (a : ProofJwtAlgorithm) :
    ProofJwtAlgorithm.ofName s = some a ↔ (a, s) ∈ algorithmNames := by
  have hin : ∀ a : ProofJwtAlgorithm, (a, a.name) ∈ algorithmNames := by intro a; cases a <;> decide
  have hof : ∀ p ∈ algorithmNames, ProofJwtAlgorithm.ofName p.2 = some p.1 := by decide
  constructor
  · intro h
    have := List.find?_some h
    rw [← eq_of_beq this]
    exact hin a
  · intro h; exact hof _ h

theorem algorithm_iff (v : Json) (a : ProofJwtAlgorithm) :
    ProofJwtAlgorithm.de v = some a ↔ AlgorithmDoc v a := by
  unfold ProofJwtAlgorithm.de AlgorithmDoc
  split
  · simp [ofName_iff]
  · simp [ofName_iff]
  · rename_i h1 h2
    simp only [reduceCtorEq, false_iff]
    rintro ⟨s, -, h | h⟩
    · exact h1 _ h
    · exact h2 _ h

theorem key_iff (kvs : List (Str × Json)) (key : Option ProofJwtAdditionalHeader) :
    ProofJwtAdditionalHeader.deFlat kvs = key ↔ KeyDoc kvs key := by
  have hk : ∀ k, k ∈ (keyOf []).map Prod.fst ↔ k = str! "kid" ∨ k = str! "jwk" ∨ k = str! "x5c" := by
    intro k; simp [keyOf]
  induction kvs with
  | nil =>
    constructor
    · rintro rfl; exact .inl ⟨rfl, by simp⟩
    · rintro (⟨rfl, -⟩ | ⟨before, _, _, _, h, -⟩)
      · rfl
      · cases before <;> cases h
  | cons p kvs ih =>
    obtain ⟨k, v⟩ := p
    by_cases h : k ∈ (keyOf []).map Prod.fst
    · have hkey : KeyDoc ((k, v) :: kvs) key ↔ KeyValue k v key := by
        constructor
        · rintro (⟨-, h'⟩ | ⟨before, k', v', after, h1, h2, h3, h4⟩)
          · exact absurd h (h' _ List.mem_cons_self)
          · cases before with
            | nil => cases h1; exact h4
            | cons q before => cases h1; exact absurd h (h2 _ List.mem_cons_self)
        · intro h'
          exact .inr ⟨[], k, v, kvs, rfl, by simp, h, h'⟩
      rw [hkey]
      rcases (hk k).1 h with rfl | rfl | rfl
      all_goals
        rw [ProofJwtAdditionalHeader.deFlat]
        cases v <;> cases key <;> simp [Serde.string, keyOf, KeyValue]
        try exact eq_comm
    · have h' := h
      rw [hk, not_or, not_or] at h'
      rw [ProofJwtAdditionalHeader.deFlat, if_neg h'.1, if_neg h'.2.1, if_neg h'.2.2]
      refine ih.trans ?_
      constructor
      · rintro (⟨h1, h2⟩ | ⟨before, k', v', after, h1, h2, h3, h4⟩)
        · exact .inl ⟨h1, fun p hp => by
            rcases List.mem_cons.1 hp with rfl | hp
            · exact h
            · exact h2 p hp⟩
        · exact .inr ⟨(k, v) :: before, k', v', after, by rw [h1]; rfl, fun p hp => by
            rcases List.mem_cons.1 hp with rfl | hp
            · exact h
            · exact h2 p hp, h3, h4⟩
      · rintro (⟨h1, h2⟩ | ⟨before, k', v', after, h1, h2, h3, h4⟩)
        · exact .inl ⟨h1, fun p hp => h2 p (List.mem_cons_of_mem _ hp)⟩
        · cases before with
          | nil => cases h1; exact absurd h3 h
          | cons q before =>
            cases h1
            exact .inr ⟨before, k', v', after, rfl, fun p hp => h2 p (List.mem_cons_of_mem _ hp), h3, h4⟩

theorem deFlat_filter (kvs : List (Str × Json)) :
    ProofJwtAdditionalHeader.deFlat (kvs.filter fun p => decide (p.1 ∉ [str! "typ", str! "alg"])) =
      ProofJwtAdditionalHeader.deFlat kvs := by
  induction kvs with
  | nil => rfl
  | cons p kvs ih =>
    obtain ⟨k, v⟩ := p
    by_cases h : k ∈ [str! "typ", str! "alg"]
    · rw [List.filter_cons_of_neg (by simp only [decide_eq_true_eq, not_not]; exact h), ih]
      rcases List.mem_cons.1 h with rfl | h
      · rfl
      · rw [List.mem_singleton.1 h]; rfl
    · rw [List.filter_cons_of_pos (by simp only [decide_eq_true_eq]; exact h)]
      simp only [ProofJwtAdditionalHeader.deFlat, ih]

/-- C63. The header of a proof JWT. -/
theorem C63_header (v : Json) (t : ProofJwtHeader) :
    ProofJwtHeader.de v = some t ↔ HeaderDoc v t := by
  unfold ProofJwtHeader.de
  constructor
  · intro h
    split at h
    · rename_i hs
      simp only [Option.bind_eq_bind, Option.bind_eq_some_iff] at h
      obtain ⟨a0, e0, a1, e1, h⟩ := h
      cases h
      obtain ⟨kvs, rfl, hf, rfl⟩ := structFlat_iff.1 hs
      cases hf with
      | cons h1 hf =>
        cases hf with
        | cons h2 _ =>
          obtain ⟨w, rfl, h3⟩ := (req_iff text_iff).1 e0
          cases h3
          obtain ⟨w, rfl, h4⟩ := (req_iff algorithm_iff).1 e1
          exact ⟨kvs, w, rfl, h1, h2, h4, (key_iff _ _).1 (deFlat_filter _).symm⟩
    · cases h
  · rintro ⟨kvs, alg, rfl, h1, h2, h3, h4⟩
    rw [structFlat_iff.2 ⟨kvs, rfl, .cons (a := str! "typ") (b := some _) h1
      (.cons (a := str! "alg") (b := some _) h2 .nil), rfl⟩]
    simp only [req, Serde.string, (algorithm_iff _ _).2 h3, Option.bind_eq_bind, Option.bind_some]
    rw [deFlat_filter, (key_iff _ _).2 h4]

/-! ### Order and unknown members -/

theorem field_perm {kvs kvs' : List (Str × Json)} (h : kvs.Perm kvs') (k : Str) :
    field k kvs = field k kvs' := by
  apply Option.ext
  intro o
  cases o with
  | none =>
    rw [field_none, field_none]
    exact ⟨fun ha v hv => ha v (h.mem_iff.2 hv), fun ha v hv => ha v (h.mem_iff.1 hv)⟩
  | some v =>
    rw [field_some, field_some, Sole, Sole, h.mem_iff, memberCount, memberCount, h.countP_eq]

theorem fields_perm {kvs kvs' : List (Str × Json)} (h : kvs.Perm kvs') (names : List Str) :
    fields names kvs = fields names kvs' := by
  induction names with
  | nil => rfl
  | cons k ks ih => rw [fields, fields, ih, field_perm h]

theorem struct_perm {kvs kvs' : List (Str × Json)} (h : kvs.Perm kvs') (names : List Str) :
    struct names (.obj kvs) = struct names (.obj kvs') := fields_perm h names

theorem credential_perm {kvs kvs' : List (Str × Json)} (h : kvs.Perm kvs') (b : Bool) :
    CredentialFormatProfile.de b (.obj kvs) = CredentialFormatProfile.de b (.obj kvs') := by
  unfold CredentialFormatProfile.de
  simp only [tagged, field_perm h]
  cases field (str! "format") kvs' with
  | none => rfl
  | some o => cases o with
    | none => rfl
    | some t =>
      have hp := h.filter fun p => decide (p.1 ≠ str! "format")
      simp only [CredentialFormatProfile.deJwt, CredentialFormatProfile.deLdp,
        CredentialFormatProfile.deMdoc, struct_perm hp]

/-- C63. The order of the members of a document object does not matter. -/
theorem C63_order_irrelevant (kvs kvs' : List (Str × Json)) (h : kvs.Perm kvs') :
    CredentialOffer.de (.obj kvs) = CredentialOffer.de (.obj kvs') ∧
    AccessTokenRequest.de (.obj kvs) = AccessTokenRequest.de (.obj kvs') ∧
    AccessTokenSuccessResponse.de (.obj kvs) = AccessTokenSuccessResponse.de (.obj kvs') ∧
    CredentialRequest.de (.obj kvs) = CredentialRequest.de (.obj kvs') ∧
    CredentialSuccessResponse.de (.obj kvs) = CredentialSuccessResponse.de (.obj kvs') ∧
    CredentialSupported.de (.obj kvs) = CredentialSupported.de (.obj kvs') := by
  have hc : ∀ names : List Str, CredentialFormatProfile.de true
      (.obj (kvs.filter fun p => decide (p.1 ∉ names))) =
      CredentialFormatProfile.de true (.obj (kvs'.filter fun p => decide (p.1 ∉ names))) :=
    fun names => credential_perm (h.filter _) true
  refine ⟨?_, ?_, ?_, ?_, ?_, ?_⟩
  · unfold CredentialOffer.de; rw [struct_perm h]
  · unfold AccessTokenRequest.de; rw [struct_perm h]
  · unfold AccessTokenSuccessResponse.de; rw [struct_perm h]
  · apply Option.ext
    intro r
    unfold CredentialRequest.de
    simp only [structFlat, fields_perm h]
    cases fields [str! "proof"] kvs' with
    | none => rfl
    | some os => match os with
      | [] => rfl
      | [_] => simp only [Option.map_some, hc]
      | _ :: _ :: _ => rfl
  · unfold CredentialSuccessResponse.de; rw [struct_perm h]
  · unfold CredentialSupported.de
    simp only [structFlat, fields_perm h]
    cases fields [str! "id", str! "cryptographic_binding_mehtods_supported",
      str! "cryptographic_suites_supported", str! "display"] kvs' with
    | none => rfl
    | some os => match os with
      | [] => rfl
      | [_] => rfl
      | [_, _] => rfl
      | [_, _, _] => rfl
      | [_, _, _, _] => simp only [Option.map_some, hc]
      | _ :: _ :: _ :: _ :: _ :: _ => rfl

/-- Two members exchanged. -/
example : CredentialOffer.de (.obj [(str! "grants", .obj []), (str! "credentials", .arr [])])
    = CredentialOffer.de (.obj [(str! "credentials", .arr []), (str! "grants", .obj [])]) :=
  (C63_order_irrelevant _ _ (List.Perm.swap _ _ _)).1

theorem field_insert (l₁ l₂ : List (Str × Json)) (k : Str) (v : Json) (k' : Str) (hk : k ≠ k') :
    field k' (l₁ ++ (k, v) :: l₂) = field k' (l₁ ++ l₂) := by
  simp [field, occurrences, List.filter_append, hk]

theorem fields_insert (l₁ l₂ : List (Str × Json)) (k : Str) (v : Json) (names : List Str)
    (hk : k ∉ names) : fields names (l₁ ++ (k, v) :: l₂) = fields names (l₁ ++ l₂) := by
  induction names with
  | nil => rfl
  | cons k' ks ih =>
    rw [fields, fields, ih fun h => hk (List.mem_cons_of_mem _ h),
      field_insert _ _ _ _ _ (by rintro rfl; exact hk List.mem_cons_self)]

/-- C63. Members with other names are ignored, wherever they stand. -/
theorem C63_unknown_ignored (l₁ l₂ : List (Str × Json)) (k : Str) (v : Json) :
    (k ∉ [str! "credential_issuer", str! "credentials", str! "grants"] →
      CredentialOffer.de (.obj (l₁ ++ (k, v) :: l₂)) = CredentialOffer.de (.obj (l₁ ++ l₂))) ∧
    (k ∉ [str! "grant_type"] →
      AccessTokenRequest.de (.obj (l₁ ++ (k, v) :: l₂)) = AccessTokenRequest.de (.obj (l₁ ++ l₂))) ∧
    (k ∉ [str! "access_token", str! "token_type", str! "expires_in", str! "scope", str! "c_nonce",
        str! "c_nonce_expires_in", str! "authorization_pending", str! "interval"] →
      AccessTokenSuccessResponse.de (.obj (l₁ ++ (k, v) :: l₂)) =
        AccessTokenSuccessResponse.de (.obj (l₁ ++ l₂))) ∧
    (k ∉ [str! "proof", str! "format", str! "types", str! "credentialSubject", str! "order",
        str! "@context", str! "doctype", str! "claims"] →
      CredentialRequest.de (.obj (l₁ ++ (k, v) :: l₂)) = CredentialRequest.de (.obj (l₁ ++ l₂))) ∧
    (k ∉ [str! "format", str! "credential", str! "acceptance_token", str! "c_nonce",
        str! "c_nonce_expires_in"] →
      CredentialSuccessResponse.de (.obj (l₁ ++ (k, v) :: l₂)) =
        CredentialSuccessResponse.de (.obj (l₁ ++ l₂))) := by
  refine ⟨fun h => ?_, fun h => ?_, fun h => ?_, fun h => ?_, fun h => ?_⟩
  · unfold CredentialOffer.de; simp only [struct, fields_insert _ _ _ _ _ h]
  · unfold AccessTokenRequest.de; simp only [struct, fields_insert _ _ _ _ _ h]
  · unfold AccessTokenSuccessResponse.de; simp only [struct, fields_insert _ _ _ _ _ h]
  · have hsub : ∀ names : List Str, names ⊆ [str! "proof", str! "format", str! "types",
        str! "credentialSubject", str! "order", str! "@context", str! "doctype", str! "claims"] →
        k ∉ names := fun names hs hk => h (hs hk)
    have hp := hsub [str! "proof"] (by decide)
    have hfm := hsub [str! "format"] (by decide)
    have hj := hsub [str! "types", str! "credentialSubject", str! "order"] (by decide)
    have hl := hsub [str! "@context", str! "types", str! "credentialSubject", str! "order"] (by decide)
    have hm := hsub [str! "doctype", str! "claims", str! "order"] (by decide)
    have hfm' : k ≠ str! "format" := fun he => hfm (he ▸ List.mem_cons_self)
    have hfil : ∀ (q : Str × Json → Bool), q (k, v) = true →
        (l₁ ++ (k, v) :: l₂).filter q = l₁.filter q ++ (k, v) :: l₂.filter q := fun q hq => by
      rw [List.filter_append, List.filter_cons_of_pos hq]
    have hcred : ∀ m₁ m₂ : List (Str × Json),
        CredentialFormatProfile.de true (.obj (m₁ ++ (k, v) :: m₂)) =
        CredentialFormatProfile.de true (.obj (m₁ ++ m₂)) := by
      intro m₁ m₂
      unfold CredentialFormatProfile.de
      simp only [tagged, field_insert _ _ _ _ _ hfm']
      cases field (str! "format") (m₁ ++ m₂) with
      | none => rfl
      | some o => cases o with
        | none => rfl
        | some t =>
          simp only [List.filter_append, List.filter_cons_of_pos (p := fun p : Str × Json =>
            decide (p.1 ≠ str! "format")) (a := (k, v)) (by simpa using hfm'),
            CredentialFormatProfile.deJwt, CredentialFormatProfile.deLdp,
            CredentialFormatProfile.deMdoc, struct, fields_insert _ _ _ _ _ hj,
            fields_insert _ _ _ _ _ hl, fields_insert _ _ _ _ _ hm]
    unfold CredentialRequest.de
    simp only [structFlat, fields_insert _ _ _ _ _ hp]
    rw [List.filter_append, List.filter_append, List.filter_cons_of_pos (a := (k, v))
      (by simp only [decide_eq_true_eq]; exact hp)]
    cases fields [str! "proof"] (l₁ ++ l₂) with
    | none => rfl
    | some os => match os with
      | [] => rfl
      | [_] => simp only [Option.map_some, hcred]
      | _ :: _ :: _ => rfl
  · unfold CredentialSuccessResponse.de; simp only [struct, fields_insert _ _ _ _ _ h]

/-- An unknown member between others. -/
example : AccessTokenSuccessResponse.de (.obj [(str! "access_token", .str (str! "t")), (str! "refresh_token", .num 1),
      (str! "token_type", .str (str! "Bearer"))])
    = AccessTokenSuccessResponse.de (.obj [(str! "access_token", .str (str! "t")),
      (str! "token_type", .str (str! "Bearer"))]) :=
  (C63_unknown_ignored [_] [_] (str! "refresh_token") (.num 1)).2.2.1 (by decide +kernel)

/-! ### C64: what is written -/

/-- C64. What is written for a credential, offer, request, response or metadata value is a document for
it, by the documented names. -/
theorem C64_written :
    (∀ o : CredentialOffer, (∀ c ∈ o.credentials, RustEntry c) → OfferDoc o.ser o) ∧
    (∀ r : AccessTokenRequest, TokenRequestDoc r.ser r) ∧
    (∀ r : AccessTokenSuccessResponse, TokenResponseDoc r.ser r) ∧
    (∀ r : CredentialRequest, RustCredential r.format → RequestDoc r.ser r) ∧
    (∀ r : CredentialSuccessResponse,
      (∀ f, r.credential = some (.credentialFormatProfile f) → RustCredential f) →
      ResponseDoc r.ser r) ∧
    (∀ c : CredentialSupported, RustCredential c.format → SupportedDoc c.ser c) ∧
    (∀ h : ProofJwtHeader, HeaderDoc h.ser h) :=
  ⟨fun o h => (C63_offer _ _).1 (CredentialOffer.de_ser o h),
   fun r => (C63_tokenRequest _ _).1 (AccessTokenRequest.de_ser r),
   fun r => (C63_tokenResponse _ _).1 (AccessTokenSuccessResponse.de_ser r),
   fun r h => (C63_request _ _).1 (CredentialRequest.de_ser r h),
   fun r h => (C63_response _ _).1 (CredentialSuccessResponse.de_ser r h),
   fun c h => (C63_supported _ _).1 (CredentialSupported.de_ser c h),
   fun h => (C63_header _ _).1 (ProofJwtHeader.de_ser h)⟩

/-- A token request with a PIN. -/
example : TokenRequestDoc (AccessTokenRequest.ser ⟨.preAuthorizedCodeFlow (str! "c") (some 1234)⟩)
    ⟨.preAuthorizedCodeFlow (str! "c") (some 1234)⟩ := C64_written.2.1 _

/-- C64. Token requests and responses survive their JSON text. -/
theorem C64_token_text (q : AccessTokenRequest) (r : AccessTokenSuccessResponse) :
    AccessTokenRequest.fromJson q.ser.print = some q ∧
    AccessTokenSuccessResponse.fromJson r.ser.print = some r := by
  have h1 := fits_tokenRequest 125 q
  have h2 := fits_tokenResponse 126 r
  rw [q.fromJson_ser (Json.rust_of_plain _ h1.1), r.fromJson_ser (Json.rust_of_plain _ h2.1),
    Json.parse_print _ h1.1 h1.2, Json.parse_print _ h2.1 h2.2]
  exact ⟨AccessTokenRequest.de_ser q, AccessTokenSuccessResponse.de_ser r⟩

/-- C64. Credential requests survive their JSON text exactly if it is nested at most 127 levels, within the
parser's recursion limit, and double-precision numbers in contexts survive (see C100). -/
theorem C64_request_text (r : CredentialRequest) (h : RustCredential r.format) :
    (CredentialRequest.fromJson r.ser.print = some r ↔
      depth r.ser ≤ 127 ∧ PlainNumbers r.ser) ∧
    (depth r.ser ≤ 127 → ∃ r', CredentialRequest.fromJson r.ser.print = some r' ∧ NearRequest r r') := by
  rw [r.fromJson_ser (rust_request r h)]
  exact ⟨r.text_iff h, r.text_near h⟩

/-- A request for a credential with a context of depth two. -/
example : CredentialRequest.fromJson (CredentialRequest.ser ⟨.ldpVc [.map [(str! "a", .arr [.num (-1)])]] [] none none, none⟩).print = some ⟨.ldpVc [.map [(str! "a", .arr [.num (-1)])]] [] none none, none⟩ :=
  (C64_request_text _ (by simp [RustCredential, RustContext, RustValue, UniqueKeys, Normal, NormalList, RustNumbers, RustNumbersList])).1.2
    ⟨by decide +kernel, by repeat' first | exact True.intro | decide | apply And.intro⟩

/-- C64. In particular those whose contexts nest at most 124 levels and have plain numbers. -/
theorem C64_request_good (r : CredentialRequest) (h : GoodCredential 124 r.format) :
    CredentialRequest.fromJson r.ser.print = some r :=
  have h1 := fits_request r h
  (C64_request_text r (GoodCredential.rust h)).1.2 ⟨h1.2, h1.1⟩

/-- A request with a proof. -/
example : CredentialRequest.fromJson (CredentialRequest.ser ⟨.msoMdoc (str! "doc") none none, some ⟨str! "jwt", str! "a.b"⟩⟩).print = some ⟨.msoMdoc (str! "doc") none none, some ⟨str! "jwt", str! "a.b"⟩⟩ :=
  C64_request_good _ (by simp [GoodCredential])

/-- C64. Credential responses survive their JSON text exactly under the same condition. -/
theorem C64_response_text (r : CredentialSuccessResponse)
    (h : ∀ f, r.credential = some (.credentialFormatProfile f) → RustCredential f) :
    (CredentialSuccessResponse.fromJson r.ser.print = some r ↔
      depth r.ser ≤ 127 ∧ PlainNumbers r.ser) ∧
    (depth r.ser ≤ 127 →
      ∃ r', CredentialSuccessResponse.fromJson r.ser.print = some r' ∧ NearResponse r r') := by
  rw [r.fromJson_ser (rust_successResponse r h)]
  exact ⟨r.text_iff h, r.text_near h⟩

/-- A deferred response. -/
example : CredentialSuccessResponse.fromJson (CredentialSuccessResponse.ser ⟨str! "ldp_vc", none, some (str! "token"), none, none⟩).print = some ⟨str! "ldp_vc", none, some (str! "token"), none, none⟩ :=
  (C64_response_text _ (by simp)).1.2 ⟨by decide +kernel, by repeat' first | exact True.intro | decide | apply And.intro⟩

/-- C64. In particular those with an encoded credential, or with contexts nested at most 122 levels and plain
numbers. -/
theorem C64_response_good (r : CredentialSuccessResponse)
    (h : ∀ f, r.credential = some (.credentialFormatProfile f) → GoodCredential 122 f) :
    CredentialSuccessResponse.fromJson r.ser.print = some r :=
  have h1 := fits_successResponse r h
  (C64_response_text r fun f hf => GoodCredential.rust (h f hf)).1.2 ⟨h1.2, h1.1⟩

/-- A response with an encoded credential and a nonce. -/
example : CredentialSuccessResponse.fromJson (CredentialSuccessResponse.ser ⟨str! "jwt_vc_json", some (.encoded (str! "e30")), none,
      some (str! "n"), some 60⟩).print
    = some ⟨str! "jwt_vc_json", some (.encoded (str! "e30")), none, some (str! "n"), some 60⟩ :=
  C64_response_good _ (by simp)

/-- C64. Different requests and responses have different texts. -/
theorem C64_texts_distinct :
    (∀ q q' : AccessTokenRequest, q.ser.print = q'.ser.print → q = q') ∧
    (∀ r r' : AccessTokenSuccessResponse, r.ser.print = r'.ser.print → r = r') ∧
    (∀ r r' : CredentialRequest, RustCredential r.format → RustCredential r'.format →
      r.ser.print = r'.ser.print → r = r') ∧
    (∀ r r' : CredentialSuccessResponse,
      (∀ f, r.credential = some (.credentialFormatProfile f) → RustCredential f) →
      (∀ f, r'.credential = some (.credentialFormatProfile f) → RustCredential f) →
      r.ser.print = r'.ser.print → r = r') ∧
    (∀ o o' : CredentialOffer, (∀ c ∈ o.credentials, RustEntry c) → (∀ c ∈ o'.credentials, RustEntry c) →
      o.ser.print = o'.ser.print → o = o') := by
  refine ⟨fun q q' h => ?_, fun r r' h => ?_, fun r r' hr hr' h => ?_, fun r r' hr hr' h => ?_,
    fun r r' hr hr' h => ?_⟩
  · have h1 := (C64_token_text q ⟨[], .bearer, none, none, none, none, none, none⟩).1
    rw [h, (C64_token_text q' ⟨[], .bearer, none, none, none, none, none, none⟩).1] at h1
    exact (Option.some.inj h1).symm
  · have h1 := (C64_token_text ⟨.authorizedCodeFlow⟩ r).2
    rw [h, (C64_token_text ⟨.authorizedCodeFlow⟩ r').2] at h1
    exact (Option.some.inj h1).symm
  · have h1 := CredentialRequest.de_ser r hr
    rw [Json.print_injective _ _ (rust_request r hr) (rust_request r' hr') h, CredentialRequest.de_ser r' hr'] at h1
    exact (Option.some.inj h1).symm
  · have h1 := CredentialSuccessResponse.de_ser r hr
    rw [Json.print_injective _ _ (rust_successResponse r hr) (rust_successResponse r' hr') h,
      CredentialSuccessResponse.de_ser r' hr'] at h1
    exact (Option.some.inj h1).symm
  · have h1 := CredentialOffer.de_ser r hr
    rw [Json.print_injective _ _ (rust_offer r hr) (rust_offer r' hr') h, CredentialOffer.de_ser r' hr'] at h1
    exact (Option.some.inj h1).symm

/-- Two PINs. -/
example : (AccessTokenRequest.ser ⟨.preAuthorizedCodeFlow (str! "c") (some 1)⟩).print
    ≠ (AccessTokenRequest.ser ⟨.preAuthorizedCodeFlow (str! "c") (some 10)⟩).print := fun h =>
  absurd (C64_texts_distinct.1 _ _ h) (by decide)

/-! ### Cases -/

/-- A credential request as in section 7.2 of the specification. -/
def Ex.requestText : Str := str! "{\"format\":\"jwt_vc_json\",\"types\":[\"VerifiableCredential\",\"UniversityDegreeCredential\"],\"extra\":1,\"proof\":{\"jwt\":\"eyJ.eyJ.sig\"}}"

/-- It is read, the extra member is ignored and the proof type filled in. -/
example : CredentialRequest.fromJson Ex.requestText = some
    ⟨.jwtVcJson [str! "VerifiableCredential", str! "UniversityDegreeCredential"] none none,
      some ⟨str! "JWT", str! "eyJ.eyJ.sig"⟩⟩ := by decide +kernel

/-- A duplicated member, and a wrong type, are errors. -/
example : CredentialOffer.de (.obj [(str! "credential_issuer", .str []), (str! "credentials", .arr []),
    (str! "grants", .obj []), (str! "grants", .obj [])]) = none := by decide
example : AccessTokenRequest.de (.obj [(str! "grant_type", .str (str! "authorization_code"))]) = none := by
  decide

/-- Named algorithms. -/
example : ProofJwtHeader.de (.obj [(str! "alg", .str (str! "ECDH-ES")), (str! "x5c", .null),
    (str! "typ", .str []), (str! "kid", .str [])]) = some ⟨[], .ECDHES, none⟩ := by decide
example : ProofJwtHeader.de (.obj [(str! "alg", .str (str! "EDDSA")), (str! "typ", .str [])]) = none := by
  decide

/-- The conditions of C64 hold for an LD credential with a nested context. -/
example : GoodCredential 124 (.ldpVc [.string (str! "https://www.w3.org/2018/credentials/v1"),
    .map [(str! "x", .obj [(str! "@id", .str (str! "y"))])]] [str! "VerifiableCredential"] none none) := by
  refine ⟨fun c hc => ?_, by simp⟩
  rcases List.mem_cons.1 hc with rfl | hc
  · trivial
  · rw [List.mem_singleton.1 hc]
    refine ⟨by simp [UniqueKeys], fun p hp => ?_⟩
    rw [List.mem_singleton.1 hp]
    refine ⟨?_, ?_, ?_⟩
    · simp [Normal, NormalMembers]
    · simp [PlainNumbers, PlainNumbersMembers]
    · simp [depth, depthMembers]

end Oid4vci
