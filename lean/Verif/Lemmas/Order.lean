import Mathlib.Data.List.Perm.Basic
import Mathlib.Data.List.Forall2
import Verif.Spec.Order
import Verif.Lemmas.Unique

/-! Reading documents whose members are in another order. -/

namespace Oid4vci

open Serde Spec

/-- Members with the same names and reordered values. -/
abbrev SameMembers : List (Str × Json) → List (Str × Json) → Prop :=
  List.Forall₂ fun p q => p.1 = q.1 ∧ Reordered p.2 q.2

theorem forall₂_trans {α : Type} {R : α → α → Prop} (h : ∀ a b c, R a b → R b c → R a c) {x y z : List α}
    (hx : List.Forall₂ R x y) (hy : List.Forall₂ R y z) : List.Forall₂ R x z := by
  induction hx generalizing z with
  | nil => exact hy
  | cons ha _ ih =>
    cases hy with
    | cons hb hy => exact .cons (h _ _ _ ha hb) (ih hy)

theorem forall₂_refl' {α : Type} {R : α → α → Prop} (h : ∀ a, R a a) (x : List α) : List.Forall₂ R x x := by
  induction x with
  | nil => exact .nil
  | cons a x ih => exact .cons (h a) ih

theorem sameMembers_refl (kvs : List (Str × Json)) : SameMembers kvs kvs :=
  forall₂_refl' (fun _ => ⟨rfl, .refl _⟩) kvs

/-- What reordered documents look like. -/
def Alike : Json → Json → Prop
  | .arr xs, .arr ys => List.Forall₂ Reordered xs ys
  | .obj kvs, .obj kvs' => ∃ mid, kvs.Perm mid ∧ SameMembers mid kvs'
  | .arr _, _ => False
  | .obj _, _ => False
  | j, j' => j = j'

theorem alike_refl (j : Json) : Alike j j := by
  cases j with
  | arr xs => exact forall₂_refl' .refl xs
  | obj kvs => exact ⟨kvs, .refl _, sameMembers_refl kvs⟩
  | _ => rfl

theorem alike_trans {i j k : Json} (h : Alike i j) (h' : Alike j k) : Alike i k := by
  cases i with
  | arr xs =>
    cases j with
    | arr ys =>
      cases k with
      | arr zs => exact forall₂_trans (fun _ _ _ => .trans) h h'
      | _ => exact h'
    | _ => exact absurd h id
  | obj kvs =>
    cases j with
    | obj kvs' =>
      cases k with
      | obj kvs'' =>
        obtain ⟨m, hp, hm⟩ := h
        obtain ⟨m', hp', hm'⟩ := h'
        have : Relation.Comp (List.Forall₂ fun p q : Str × Json => p.1 = q.1 ∧ Reordered p.2 q.2) List.Perm m m' :=
          ⟨kvs', hm, hp'⟩
        rw [List.forall₂_comp_perm_eq_perm_comp_forall₂] at this
        obtain ⟨n, hn, hn'⟩ := this
        exact ⟨n, hp.trans hn, forall₂_trans (fun a b c h h' => ⟨h.1.trans h'.1, h.2.trans h'.2⟩) hn' hm'⟩
      | _ => exact h'
    | _ => exact absurd h id
  | _ => cases h; exact h'

/-- Reordered documents look like that. -/
theorem Spec.Reordered.alike {j j' : Json} (h : Reordered j j') : Alike j j' := by
  induction h with
  | refl j => exact alike_refl j
  | trans _ _ ih ih' => exact alike_trans ih ih'
  | members h => exact ⟨_, h, sameMembers_refl _⟩
  | element b a h ih =>
    exact List.rel_append (forall₂_refl' .refl b) (.cons h (forall₂_refl' .refl a))
  | value b a k h ih =>
    exact ⟨_, .refl _, List.rel_append (sameMembers_refl b) (.cons ⟨rfl, h⟩ (sameMembers_refl a))⟩

/-- Elementwise. -/
theorem reordered_arr {xs ys : List Json} (h : List.Forall₂ Reordered xs ys) : Reordered (.arr xs) (.arr ys) := by
  suffices ∀ pre : List Json, Reordered (.arr (pre ++ xs)) (.arr (pre ++ ys)) from this []
  induction h with
  | nil => exact fun _ => .refl _
  | cons h _ ih =>
    rename_i a b l m _
    intro pre
    have := ih (pre ++ [b])
    simp only [List.append_assoc, List.singleton_append] at this
    exact .trans (.element pre l h) this

/-- Memberwise. -/
theorem reordered_obj {kvs kvs' : List (Str × Json)} (h : SameMembers kvs kvs') :
    Reordered (.obj kvs) (.obj kvs') := by
  suffices ∀ pre : List (Str × Json), Reordered (.obj (pre ++ kvs)) (.obj (pre ++ kvs')) from this []
  induction h with
  | nil => exact fun _ => .refl _
  | cons h _ ih =>
    rename_i a b l m _
    obtain ⟨k, v⟩ := a
    obtain ⟨k', v'⟩ := b
    obtain ⟨rfl, h⟩ := h
    intro pre
    have := ih (pre ++ [(k, v')])
    simp only [List.append_assoc, List.singleton_append] at this
    exact .trans (.value pre l k h) this

/-- In both ways. -/
theorem reordered_obj' {kvs mid kvs' : List (Str × Json)} (h : kvs.Perm mid) (h' : SameMembers mid kvs') :
    Reordered (.obj kvs) (.obj kvs') := .trans (.members h) (reordered_obj h')

/-- A condition on documents which holds for their parts. -/
structure Hereditary (P : Json → Prop) : Prop where
  elem : ∀ {xs : List Json}, P (.arr xs) → ∀ x ∈ xs, P x
  tail : ∀ {x : Json} {xs : List Json}, P (.arr (x :: xs)) → P (.arr xs)
  member : ∀ {kvs : List (Str × Json)}, P (.obj kvs) → ∀ p ∈ kvs, P p.2
  part : ∀ {kvs : List (Str × Json)} (f : Str × Json → Bool), P (.obj kvs) → P (.obj (kvs.filter f))

theorem hereditary_true : Hereditary fun _ => True := ⟨by simp, by simp, by simp, by simp⟩

theorem hereditary_unique : Hereditary UniqueNames where
  elem h := (uniqueNamesList_iff _).1 (by simpa [UniqueNames] using h)
  tail h := by simp only [UniqueNames, UniqueNamesList] at h ⊢; exact h.2
  member h := ((uniqueNames_obj _).1 h).2
  part f h := by
    rw [uniqueNames_obj] at h ⊢
    exact ⟨h.1.sublist (List.Sublist.map _ List.filter_sublist), fun p hp => h.2 p (List.mem_filter.1 hp).1⟩

/-- A reader to which the order of members means nothing, on documents with `P`. -/
def Indifferent (P : Json → Prop) {α : Type} (d : De α) (R : α → α → Prop) : Prop :=
  ∀ j j', Reordered j j' → P j → Option.Rel R (d j) (d j')

variable {P : Json → Prop}

theorem optionRel_refl {α : Type} {R : α → α → Prop} (h : ∀ a, R a a) (o : Option α) : Option.Rel R o o := by
  cases o with
  | none => exact .none
  | some a => exact .some (h a)

theorem optionRel_eq {α : Type} {o o' : Option α} : Option.Rel (· = ·) o o' ↔ o = o' := by
  constructor
  · rintro (h | _)
    · rename_i h; rw [h]
    · rfl
  · rintro rfl; exact optionRel_refl (fun _ => rfl) _

theorem optionRel_bind {α β : Type} {R : α → α → Prop} {S : β → β → Prop} {o o' : Option α}
    {f f' : α → Option β} (h : Option.Rel R o o') (hf : ∀ a a', R a a' → Option.Rel S (f a) (f' a')) :
    Option.Rel S (o.bind f) (o'.bind f') := by
  cases h with
  | none => exact .none
  | some h => exact hf _ _ h

theorem optionRel_map {α β : Type} {R : α → α → Prop} {S : β → β → Prop} {o o' : Option α}
    {f f' : α → β} (h : Option.Rel R o o') (hf : ∀ a a', R a a' → S (f a) (f' a')) :
    Option.Rel S (o.map f) (o'.map f') := by
  cases h with
  | none => exact .none
  | some h => exact .some (hf _ _ h)

/-- Readers that look at no object or array. -/
theorem indifferent_scalar {α : Type} {d : De α} (ha : ∀ xs, d (.arr xs) = none)
    (ho : ∀ kvs, d (.obj kvs) = none) : Indifferent P d (· = ·) := by
  intro j j' h _
  have h := h.alike
  rw [optionRel_eq]
  cases j with
  | arr xs =>
    cases j' with
    | arr ys => rw [ha, ha]
    | _ => exact absurd h id
  | obj xs =>
    cases j' with
    | obj ys => rw [ho, ho]
    | _ => exact absurd h id
  | _ => exact congrArg d h

theorem indifferent_string : Indifferent P Serde.string (· = ·) :=
  indifferent_scalar (fun _ => rfl) fun _ => rfl
theorem indifferent_bool : Indifferent P Serde.bool (· = ·) :=
  indifferent_scalar (fun _ => rfl) fun _ => rfl
theorem indifferent_u32 : Indifferent P Serde.u32 (· = ·) :=
  indifferent_scalar (fun _ => rfl) fun _ => rfl
theorem indifferent_u64 : Indifferent P Serde.u64 (· = ·) :=
  indifferent_scalar (fun _ => rfl) fun _ => rfl
theorem indifferent_time (x : Ext) : Indifferent P (deTime x) (· = ·) :=
  indifferent_scalar (fun _ => rfl) fun _ => rfl

/-- `null` stays `null`, and nothing else becomes it. -/
theorem reordered_null {j j' : Json} (h : Reordered j j') : j = .null ↔ j' = .null := by
  have h := h.alike
  cases j <;> cases j' <;> simp_all [Alike]

theorem indifferent_option {α : Type} {d : De α} {R : α → α → Prop} (hd : Indifferent P d R) :
    Indifferent P (option d) (Option.Rel R) := by
  intro j j' h hp
  have hn := reordered_null h
  by_cases hj : j = .null
  · rw [hj, hn.1 hj]; exact .some .none
  · have hj' : j' ≠ .null := fun hh => hj (hn.2 hh)
    have e : ∀ j : Json, j ≠ .null → option d j = (d j).map some := by
      intro j hj; cases j <;> first | exact absurd rfl hj | rfl
    rw [e j hj, e j' hj']
    exact optionRel_map (hd j j' h hp) fun _ _ h => .some h

theorem indifferent_all {α : Type} {d : De α} {R : α → α → Prop} (hd : Indifferent P d R) {xs ys : List Json}
    (h : List.Forall₂ Reordered xs ys) (hp : ∀ x ∈ xs, P x) :
    Option.Rel (List.Forall₂ R) (all d xs) (all d ys) := by
  induction h with
  | nil => exact .some .nil
  | cons h _ ih =>
    rename_i a b l m _
    have h1 := hd a b h (hp a (by simp))
    have h2 := ih fun x hx => hp x (by simp [hx])
    simp only [Serde.all]
    revert h1 h2
    generalize d a = oa, d b = ob, all d l = ol, all d m = om
    rintro (h1 | _) (h2 | _)
    · rename_i h1 _ _ h2; exact .some (.cons h1 h2)
    · exact .none
    · exact .none
    · exact .none

theorem indifferent_vec (H : Hereditary P) {α : Type} {d : De α} {R : α → α → Prop} (hd : Indifferent P d R) :
    Indifferent P (vec d) (List.Forall₂ R) := by
  intro j j' h hp
  have h := h.alike
  cases j with
  | arr xs =>
    cases j' with
    | arr ys => exact indifferent_all hd h (H.elem hp)
    | _ => exact absurd h id
  | obj xs =>
    cases j' with
    | obj ys => exact .none
    | _ => exact absurd h id
  | _ => cases h; exact .none

theorem forall₂_eq' {α : Type} {x y : List α} (h : List.Forall₂ (· = ·) x y) : x = y :=
  List.forall₂_eq_eq_eq ▸ h

/-- Vectors of things without maps. -/
theorem indifferent_vec_eq (H : Hereditary P) {α : Type} {d : De α} (hd : Indifferent P d (· = ·)) :
    Indifferent P (vec d) (· = ·) := fun j j' h hp => by
  have := indifferent_vec H hd j j' h hp
  revert this
  generalize vec d j = a, vec d j' = b
  rintro (h | _)
  · exact .some (forall₂_eq' (by assumption))
  · exact .none

theorem optionRel_eq_eq {α : Type} {o o' : Option α} (h : Option.Rel (· = ·) o o') : o = o' := optionRel_eq.1 h

/-- A reordered part. -/
abbrev Part (P : Json → Prop) : Option Json → Option Json → Prop :=
  Option.Rel fun j j' => Reordered j j' ∧ P j

theorem indifferent_opt {α : Type} {d : De α} {R : α → α → Prop} (hd : Indifferent P d R)
    {o o' : Option Json} (h : Part P o o') : Option.Rel (Option.Rel R) (opt d o) (opt d o') := by
  cases h with
  | none => exact .some .none
  | some h => exact indifferent_option hd _ _ h.1 h.2

theorem indifferent_opt_eq {α : Type} {d : De α} (hd : Indifferent P d (· = ·))
    {o o' : Option Json} (h : Part P o o') : Option.Rel (· = ·) (opt d o) (opt d o') := by
  have := indifferent_opt hd h
  revert this
  generalize opt d o = a, opt d o' = b
  rintro (h | _)
  · exact .some (optionRel_eq_eq (by assumption))
  · exact .none

theorem indifferent_req {α : Type} {d : De α} {R : α → α → Prop} (hd : Indifferent P d R)
    {o o' : Option Json} (h : Part P o o') : Option.Rel R (req d o) (req d o') := by
  cases h with
  | none => exact .none
  | some h => exact hd _ _ h.1 h.2

theorem indifferent_dflt {α : Type} {d : De α} (hd : Indifferent P d (· = ·)) (a : α)
    {o o' : Option Json} (h : Part P o o') : Option.Rel (· = ·) (dflt d a o) (dflt d a o') := by
  cases h with
  | none => exact .some rfl
  | some h => exact hd _ _ h.1 h.2

/-- Filtering by name. -/
theorem sameMembers_filter {kvs kvs' : List (Str × Json)} (h : SameMembers kvs kvs') (f : Str → Bool) :
    SameMembers (kvs.filter fun p => f p.1) (kvs'.filter fun p => f p.1) := by
  induction h with
  | nil => exact .nil
  | cons h _ ih =>
    rename_i a b l m _
    simp only [List.filter_cons, ← h.1]
    split
    · exact .cons h ih
    · exact ih

theorem occurrences_same {kvs kvs' : List (Str × Json)} (h : SameMembers kvs kvs') (k : Str) :
    List.Forall₂ Reordered (occurrences k kvs) (occurrences k kvs') := by
  have := sameMembers_filter h fun n => decide (n = k)
  rw [occurrences, occurrences]
  rw [List.forall₂_map_left_iff, List.forall₂_map_right_iff]
  exact this.imp fun _ _ h => h.2

theorem field_permuted {kvs kvs' : List (Str × Json)} (h : kvs.Perm kvs') (k : Str) : field k kvs = field k kvs' := by
  have h : (occurrences k kvs).Perm (occurrences k kvs') := (h.filter _).map _
  rw [field, field]
  generalize occurrences k kvs = a at h
  generalize occurrences k kvs' = b at h
  match a, b, h with
  | [], b, h => rw [h.nil_eq]
  | [x], b, h => rw [List.singleton_perm.1 h]
  | x :: y :: r, b, h =>
    match b, h.length_eq with
    | x' :: y' :: r', _ => rfl

theorem occurrences_mem {kvs : List (Str × Json)} {k : Str} {v : Json} (h : v ∈ occurrences k kvs) :
    ∃ p ∈ kvs, p.2 = v := by
  obtain ⟨p, hp, rfl⟩ := List.mem_map.1 h
  exact ⟨p, (List.mem_filter.1 hp).1, rfl⟩

theorem field_alike (H : Hereditary P) {kvs mid kvs' : List (Str × Json)} (h : kvs.Perm mid)
    (h' : SameMembers mid kvs') (hp : P (.obj kvs)) (k : Str) :
    Option.Rel (Part P) (field k kvs) (field k kvs') := by
  rw [field_permuted h]
  have ho := occurrences_same h' k
  have hm : ∀ v ∈ occurrences k mid, P v := by
    intro v hv
    obtain ⟨p, hp', rfl⟩ := occurrences_mem hv
    exact H.member hp p (h.mem_iff.2 hp')
  rw [field, field]
  revert ho hm
  generalize occurrences k mid = a, occurrences k kvs' = b
  rintro (_ | ⟨h1, _ | ⟨h2, h3⟩⟩) hm
  · exact .some .none
  · exact .some (.some ⟨h1, hm _ (by simp)⟩)
  · exact .none

theorem fields_alike (H : Hereditary P) {kvs mid kvs' : List (Str × Json)} (h : kvs.Perm mid)
    (h' : SameMembers mid kvs') (hp : P (.obj kvs)) (ks : List Str) :
    Option.Rel (List.Forall₂ (Part P)) (fields ks kvs) (fields ks kvs') := by
  induction ks with
  | nil => exact .some .nil
  | cons k ks ih =>
    have h1 := field_alike H h h' hp k
    simp only [fields]
    revert h1 ih
    generalize field k kvs = a, field k kvs' = b, fields ks kvs = c, fields ks kvs' = d
    rintro (h1 | _) (h2 | _)
    · rename_i h1 _ _ h2; exact .some (.cons h2 h1)
    · exact .none
    · exact .none
    · exact .none

theorem forall₂_with {xs ys : List Json} (h : List.Forall₂ Reordered xs ys) (hm : ∀ x ∈ xs, P x) :
    List.Forall₂ (fun a b => Part P (some a) (some b)) xs ys := by
  induction h with
  | nil => exact .nil
  | cons h _ ih => exact .cons (.some ⟨h, hm _ (by simp)⟩) (ih fun x hx => hm x (by simp [hx]))

theorem struct_alike (H : Hereditary P) (ks : List Str) {j j' : Json} (h : Reordered j j') (hp : P j) :
    Option.Rel (List.Forall₂ (Part P)) (struct ks j) (struct ks j') := by
  have h := h.alike
  cases j with
  | arr xs =>
    cases j' with
    | arr ys =>
      have hl : xs.length = ys.length := h.length_eq
      simp only [struct, ← hl]
      split
      · refine .some ?_
        have hm := H.elem hp
        rw [List.forall₂_map_left_iff, List.forall₂_map_right_iff]
        exact forall₂_with h hm
      · exact .none
    | _ => exact absurd h id
  | obj xs =>
    cases j' with
    | obj ys =>
      obtain ⟨mid, hm, hm'⟩ := h
      exact fields_alike H hm hm' hp ks
    | _ => exact absurd h id
  | _ => cases h; exact .none

theorem structFlat_alike (H : Hereditary P) (ks : List Str) {j j' : Json} (h : Reordered j j') (hp : P j) :
    Option.Rel (fun a b => List.Forall₂ (Part P) a.1 b.1 ∧ Reordered (.obj a.2) (.obj b.2) ∧ P (.obj a.2))
      (structFlat ks j) (structFlat ks j') := by
  have h := h.alike
  cases j with
  | arr xs =>
    cases j' with
    | arr ys => exact .none
    | _ => exact absurd h id
  | obj xs =>
    cases j' with
    | obj ys =>
      obtain ⟨mid, hm, hm'⟩ := h
      refine optionRel_map (fields_alike H hm hm' hp ks) fun a b hab => ⟨hab, ?_, H.part _ hp⟩
      exact reordered_obj' (hm.filter _) (sameMembers_filter hm' fun n => decide (n ∉ ks))
    | _ => exact absurd h id
  | _ => cases h; exact .none

theorem tagged_alike (H : Hereditary P) (tag : Str) {j j' : Json} (h : Reordered j j') (hp : P j) :
    Option.Rel (fun a b => (Reordered a.1 b.1 ∧ P a.1) ∧ Reordered a.2 b.2 ∧ P a.2)
      (tagged tag j) (tagged tag j') := by
  have h := h.alike
  cases j with
  | arr xs =>
    cases j' with
    | arr ys =>
      have h : List.Forall₂ Reordered xs ys := h
      cases h with
      | nil => exact .none
      | cons h1 h2 => exact .some ⟨⟨h1, H.elem hp _ (by simp)⟩, reordered_arr h2, H.tail hp⟩
    | _ => exact absurd h id
  | obj xs =>
    cases j' with
    | obj ys =>
      obtain ⟨mid, hm, hm'⟩ := h
      have hf := field_alike H hm hm' hp tag
      have hr := reordered_obj' (hm.filter (fun p => decide (p.1 ≠ tag)))
        (sameMembers_filter hm' fun n => decide (n ≠ tag))
      have hr' := H.part (fun p => decide (p.1 ≠ tag)) hp
      simp only [tagged]
      revert hf
      generalize field tag xs = a, field tag ys = b
      rintro ((h | _) | _)
      · exact .some ⟨by assumption, hr, hr'⟩
      · exact .none
      · exact .none
    | _ => exact absurd h id
  | _ => cases h; exact .none

theorem variant_alike (names : List Str) (buffered : Bool) {j j' : Json} (h : Reordered j j') :
    variant names buffered j = variant names buffered j' := by
  have h := h.alike
  cases j with
  | arr xs =>
    cases j' with
    | arr ys => rfl
    | _ => exact absurd h id
  | obj xs =>
    cases j' with
    | obj ys => rfl
    | _ => exact absurd h id
  | _ => cases h; rfl

end Oid4vci
