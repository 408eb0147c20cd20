import Mathlib.Data.List.Nodup
import Verif.Spec.Wire

/-! Generic facts about derived (de)serialisation. -/

namespace Oid4vci
namespace Serde

open Spec

theorem all_map {α : Type} {d : De α} {f : α → Json} (xs : List α)
    (h : ∀ a ∈ xs, d (f a) = some a) : all d (xs.map f) = some xs := by
  induction xs with
  | nil => rfl
  | cons a xs ih =>
    simp only [List.map_cons, all]
    rw [h a (by simp), ih fun b hb => h b (by simp [hb])]

theorem vec_serVec {α : Type} {d : De α} {f : α → Json} (xs : List α)
    (h : ∀ a ∈ xs, d (f a) = some a) : vec d (serVec f xs) = some xs := all_map xs h

theorem vec_str (xs : List Str) : vec Serde.string (serVec .str xs) = some xs :=
  vec_serVec xs fun _ _ => rfl

theorem option_some {α : Type} {d : De α} {j : Json} {a : α} (hn : j ≠ .null)
    (h : d j = some a) : option d j = some (some a) := by
  unfold option
  split
  · exact absurd rfl hn
  · rw [h]; rfl

/-- An `Option` field written by `serOpt`. -/
theorem opt_serOpt {α : Type} {d : De α} {f : α → Json} (o : Option α)
    (hn : ∀ a ∈ o, f a ≠ .null) (h : ∀ a ∈ o, d (f a) = some a) :
    opt d (some (serOpt f o)) = some o := by
  cases o with
  | none => rfl
  | some a => exact option_some (hn a rfl) (h a rfl)

theorem opt_str (o : Option Str) : opt Serde.string (some (serOpt .str o)) = some o :=
  opt_serOpt o (by simp) fun _ _ => rfl

theorem opt_bool (o : Option Bool) : opt Serde.bool (some (serOpt .bool o)) = some o :=
  opt_serOpt o (by simp) fun _ _ => rfl

theorem opt_strs (o : Option (List Str)) :
    opt (vec Serde.string) (some (serOpt (serVec .str) o)) = some o :=
  opt_serOpt o (by simp [serVec]) fun _ _ => vec_str _

/-- An `Option` field written by `skipNone`: present or absent. -/
theorem opt_map {α : Type} {d : De α} {f : α → Json} (o : Option α)
    (hn : ∀ a ∈ o, f a ≠ .null) (h : ∀ a ∈ o, d (f a) = some a) :
    opt d (o.map f) = some o := by
  cases o with
  | none => rfl
  | some a => exact option_some (hn a rfl) (h a rfl)

theorem u32_ser (n : UInt32) : u32 (.num n.toNat) = some n := by
  have := n.toNat_lt
  simp [u32]; omega

theorem u64_ser (n : UInt64) : u64 (.num n.toNat) = some n := by
  have := n.toNat_lt
  simp [u64]; omega

theorem hinsert_new {α : Type} (m : HMap α) (k : Str) (v : α) (h : k ∉ m.map Prod.fst) :
    hinsert m k v = m ++ [(k, v)] := by
  induction m with
  | nil => rfl
  | cons p m ih =>
    obtain ⟨k', v'⟩ := p
    simp only [List.map_cons, List.mem_cons, not_or] at h
    simp [hinsert, h.1, ih h.2]

theorem entries_map {α : Type} {d : De α} {f : α → Json} (m : HMap α) :
    ∀ acc : HMap α, UniqueKeys (acc ++ m) → (∀ p ∈ m, d (f p.2) = some p.2) →
    entries d acc (m.map fun p => (p.1, f p.2)) = some (acc ++ m) := by
  induction m with
  | nil => intro acc _ _; simp [entries]
  | cons p m ih =>
    intro acc hu h
    obtain ⟨k, v⟩ := p
    have hk : k ∉ acc.map Prod.fst := by
      simp only [UniqueKeys, List.map_append, List.map_cons] at hu
      have := (List.nodup_append.1 hu).2.2
      intro hm
      exact this k hm k (by simp) rfl
    simp only [List.map_cons, entries, h (k, v) (by simp), hinsert_new acc k v hk]
    rw [ih (acc ++ [(k, v)]) (by simpa using hu) fun p hp => h p (by simp [hp])]
    simp

theorem hmap_serMap {α : Type} {d : De α} {f : α → Json} (m : HMap α) (hu : UniqueKeys m)
    (h : ∀ p ∈ m, d (f p.2) = some p.2) : hmap d (serMap f m) = some m := by
  have := entries_map (d := d) (f := f) m [] (by simpa using hu) h
  simpa [hmap, serMap] using this

/-! ### `serde_json::Value` -/

theorem strLt_iff (a b : Str) : strLt a b = true ↔ a < b := by
  have ht : ∀ x y : Char, x.toNat < y.toNat ↔ x < y := fun x y => Iff.rfl
  induction a generalizing b with
  | nil => cases b <;> simp [strLt]
  | cons x a ih =>
    cases b with
    | nil => simp [strLt]
    | cons y b =>
      rw [strLt, List.cons_lt_cons_iff]
      by_cases h1 : x < y
      · simp [h1, ht]
      · by_cases h2 : y < x
        · have : x ≠ y := by rintro rfl; exact h1 h2
          simp [ht, h1, h2, this]
        · have : x = y := by
            apply Char.toNat_inj.1
            rw [← ht] at h1 h2; omega
          subst this
          simp [h1, ih]

theorem str_lt_irrefl (a : Str) : ¬ a < a := List.lt_irrefl a

/-- Inserting a key above all others appends it. -/
theorem binsert_last (m : List (Str × Json)) (k : Str) (v : Json) (h : ∀ p ∈ m, p.1 < k) :
    binsert m k v = m ++ [(k, v)] := by
  induction m with
  | nil => rfl
  | cons p m ih =>
    obtain ⟨k', v'⟩ := p
    have h1 : k' < k := h (k', v') (by simp)
    have h2 : ¬ k < k' := fun hh => absurd (List.lt_trans hh h1) (str_lt_irrefl k)
    have h3 : k ≠ k' := by rintro rfl; exact str_lt_irrefl _ h1
    have h4 : strLt k k' = false := by
      cases hs : strLt k k'
      · rfl
      · exact absurd ((strLt_iff _ _).1 hs) h2
    simp [binsert, h3, h4, ih fun p hp => h p (by simp [hp])]

mutual
theorem value_normal (j : Json) (h : Normal j) : value j = j := by
  match j, h with
  | .null, _ | .bool _, _ | .num _, _ | .float _, _ | .str _, _ => simp [value]
  | .arr xs, h =>
    rw [value, valueList_normal xs (by simpa [Normal] using h)]
  | .obj kvs, h =>
    simp only [Normal] at h
    rw [value, valueEntries_normal kvs h.2 [] (by simpa using h.1)]
    rfl
theorem valueList_normal (xs : List Json) (h : NormalList xs) : valueList xs = xs := by
  match xs, h with
  | [], _ => simp [valueList]
  | x :: xs, h =>
    simp only [NormalList] at h
    rw [valueList, value_normal x h.1, valueList_normal xs h.2]
theorem valueEntries_normal (kvs : List (Str × Json)) (h : NormalMembers kvs)
    (acc : List (Str × Json))
    (hs : (acc ++ kvs).Pairwise fun p q => p.1 < q.1) :
    valueEntries acc kvs = acc ++ kvs := by
  match kvs, h with
  | [], _ => simp [valueEntries]
  | (k, v) :: kvs, h =>
    simp only [NormalMembers] at h
    have hlast : ∀ p ∈ acc, p.1 < k := by
      intro p hp
      exact (List.pairwise_append.1 hs).2.2 p hp (k, v) (by simp)
    rw [valueEntries, value_normal v h.1, binsert_last acc k v hlast]
    have e : acc ++ [(k, v)] ++ kvs = acc ++ (k, v) :: kvs := by simp
    rw [valueEntries_normal kvs h.2 (acc ++ [(k, v)]) (by rw [e]; exact hs), e]
end

end Serde
end Oid4vci
