import Verif.Spec.Unique
import Verif.Lemmas.Stable
import Verif.Model.Options

/-! Documents which name each member once. -/

namespace Oid4vci

open Serde Spec

/-- Elementwise. -/
theorem uniqueNamesList_iff (vs : List Json) : UniqueNamesList vs ↔ ∀ v ∈ vs, UniqueNames v := by
  induction vs with
  | nil => simp [UniqueNamesList]
  | cons x xs ih => simp [UniqueNamesList, ih]

/-- Memberwise. -/
theorem uniqueNamesMembers_iff (kvs : List (Str × Json)) :
    UniqueNamesMembers kvs ↔ ∀ p ∈ kvs, UniqueNames p.2 := by
  induction kvs with
  | nil => simp [UniqueNamesMembers]
  | cons p kvs ih =>
    obtain ⟨k, v⟩ := p
    simp only [UniqueNamesMembers, ih, List.mem_cons, forall_eq_or_imp]

/-- Objects. -/
theorem uniqueNames_obj (kvs : List (Str × Json)) :
    UniqueNames (.obj kvs) ↔ (kvs.map Prod.fst).Nodup ∧ ∀ p ∈ kvs, UniqueNames p.2 := by
  rw [UniqueNames, uniqueNamesMembers_iff]

theorem uniqueNames_str (s : Str) : UniqueNames (.str s) := by simp [UniqueNames]
theorem uniqueNames_bool (b : Bool) : UniqueNames (.bool b) := by simp [UniqueNames]
theorem uniqueNames_null : UniqueNames .null := by simp [UniqueNames]
theorem uniqueNames_num (n : Int) : UniqueNames (.num n) := by simp [UniqueNames]
theorem uniqueNames_u32 (n : UInt32) : UniqueNames (serU32 n) := by simp [serU32, UniqueNames]
theorem uniqueNames_u64 (n : UInt64) : UniqueNames (serU64 n) := by simp [serU64, UniqueNames]
theorem uniqueNames_time (x : Ext) (t : Time) : UniqueNames (serTime x t) := by simp [serTime, UniqueNames]

/-- Optional fields. -/
theorem uniqueNames_opt {α : Type} {f : α → Json} {o : Option α} (h : ∀ a ∈ o, UniqueNames (f a)) :
    UniqueNames (serOpt f o) := by
  cases o with
  | none => exact uniqueNames_null
  | some a => exact h a rfl

/-- Vectors. -/
theorem uniqueNames_vec {α : Type} {f : α → Json} {xs : List α} (h : ∀ a ∈ xs, UniqueNames (f a)) :
    UniqueNames (serVec f xs) := by
  rw [serVec, UniqueNames, uniqueNamesList_iff]
  intro v hv
  obtain ⟨a, ha, rfl⟩ := List.mem_map.1 hv
  exact h a ha

/-- Maps. -/
theorem uniqueNames_map {α : Type} {f : α → Json} {m : HMap α} (hm : UniqueKeys m)
    (h : ∀ p ∈ m, UniqueNames (f p.2)) : UniqueNames (serMap f m) := by
  rw [serMap, uniqueNames_obj]
  refine ⟨by rw [List.map_map]; exact hm, fun p hp => ?_⟩
  obtain ⟨a, ha, rfl⟩ := List.mem_map.1 hp
  exact h a ha

mutual
/-- A `serde_json::Value` has each name once. -/
theorem Spec.Normal.uniqueNames (j : Json) (h : Normal j) : UniqueNames j := by
  match j, h with
  | .null, _ | .bool _, _ | .num _, _ | .float _, _ | .str _, _ => simp [UniqueNames]
  | .arr xs, h => rw [UniqueNames]; exact Spec.NormalList.uniqueNames xs (by simpa [Normal] using h)
  | .obj kvs, h =>
    simp only [Normal] at h
    rw [UniqueNames]
    refine ⟨?_, Spec.NormalMembers.uniqueNames kvs h.2⟩
    rw [List.Nodup, List.pairwise_map]
    exact h.1.imp fun {p q} (hlt : p.1 < q.1) (he : p.1 = q.1) => str_lt_irrefl q.1 (he ▸ hlt)
theorem Spec.NormalList.uniqueNames (xs : List Json) (h : NormalList xs) : UniqueNamesList xs := by
  match xs, h with
  | [], _ => simp [UniqueNamesList]
  | x :: xs, h =>
    simp only [NormalList] at h
    exact ⟨Spec.Normal.uniqueNames x h.1, Spec.NormalList.uniqueNames xs h.2⟩
theorem Spec.NormalMembers.uniqueNames (kvs : List (Str × Json)) (h : NormalMembers kvs) :
    UniqueNamesMembers kvs := by
  match kvs, h with
  | [], _ => simp [UniqueNamesMembers]
  | (k, v) :: kvs, h =>
    simp only [NormalMembers] at h
    exact ⟨Spec.Normal.uniqueNames v h.1, Spec.NormalMembers.uniqueNames kvs h.2⟩
end

mutual
/-- Whatever is made a `serde_json::Value` is one. -/
theorem value_isNormal (v : Json) : Normal (Serde.value v) := by
  match v with
  | .null | .bool _ | .num _ | .float _ | .str _ => simp [Serde.value, Normal]
  | .arr vs => rw [Serde.value, Normal, normalList_iff]; exact valueList_isNormal vs
  | .obj kvs =>
    rw [Serde.value, Normal, normalMembers_iff]
    exact valueEntries_isNormal kvs [] .nil (by simp)
theorem valueList_isNormal (vs : List Json) : ∀ v ∈ valueList vs, Normal v := by
  match vs with
  | [] => simp [valueList]
  | x :: xs =>
    intro v hv
    rw [valueList] at hv
    rcases List.mem_cons.1 hv with rfl | hv
    · exact value_isNormal x
    · exact valueList_isNormal xs v hv
theorem valueEntries_isNormal (kvs : List (Str × Json)) (acc : List (Str × Json))
    (hs : acc.Pairwise fun p q => p.1 < q.1) (ha : ∀ p ∈ acc, Normal p.2) :
    (valueEntries acc kvs).Pairwise (fun p q => p.1 < q.1) ∧ ∀ p ∈ valueEntries acc kvs, Normal p.2 := by
  match kvs with
  | [] => simpa [valueEntries] using ⟨hs, fun a b => ha (a, b)⟩
  | (k, v) :: kvs =>
    rw [valueEntries]
    refine valueEntries_isNormal kvs _ (binsert_sorted hs) fun p hp => ?_
    rcases binsert_mem hp with rfl | hp
    · exact value_isNormal v
    · exact ha p hp
end

end Oid4vci
