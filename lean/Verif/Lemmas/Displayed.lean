import Verif.Base.Reading
import Verif.Lemmas.Shortest
import Verif.Spec.JsonReport

/-! What a report calls a double-precision number. -/

namespace Oid4vci

open Spec hiding value

theorem Scaled.isDouble {q : ℚ} {k : Int} {m : Nat} {e : Int} (h : Scaled q k m e) : IsDouble m e := by
  induction h with
  | up _ _ _ _ _ _ _ _ h => exact h.2.1
  | zero => simp [IsDouble]
  | down _ _ _ _ _ _ _ _ _ h => exact h.2.1
  | far _ _ _ _ _ _ _ _ _ _ _ _ ih => exact ih

theorem ReadAs.isDouble {s : Str} {d : Double} (h : ReadAs s d) : IsDouble d.mant d.exp := by
  obtain ⟨_, _, _, _, _, _, _, _, _, _, _, _, hs⟩ := h
  exact Scaled.isDouble hs

namespace Reading

open Json

theorem plain_iff {ds : Str} (hds : ds ≠ []) {k : Int} {t : Str} : Unscaled ds k t ↔
    (if 0 ≤ k then ds ++ List.replicate k.toNat '0'
      else if 0 < (ds.length : Int) + k then
        ds.take ((ds.length : Int) + k).toNat ++ '.' :: ds.drop ((ds.length : Int) + k).toNat
      else str! "0." ++ List.replicate (-((ds.length : Int) + k)).toNat '0' ++ ds) = t := by
  constructor
  · intro h
    cases h with
    | whole n h => subst h; simp
    | inside a b h1 h2 h3 h4 =>
      have ha := List.length_pos_of_ne_nil h2
      have hb := List.length_pos_of_ne_nil h4
      have hl : ds.length = a.length + b.length := by rw [h1, List.length_append]
      rw [if_neg (by omega), if_pos (by omega)]
      have : ((ds.length : Int) + k).toNat = a.length := by omega
      rw [this, h1]
      simp
    | small n h1 =>
      have := List.length_pos_of_ne_nil hds
      rw [if_neg (by omega), if_neg (by omega)]
      have : (-((ds.length : Int) + k)).toNat = n := by omega
      rw [this]
  · rintro rfl
    split
    · exact .whole k.toNat (Int.toNat_of_nonneg ‹_›).symm
    split
    · rename_i h1 h2
      refine .inside _ _ (List.take_append_drop _ _).symm ?_ ?_ ?_
      · intro h; have := congrArg List.length h; simp only [List.length_take, List.length_nil] at this; omega
      · simp only [List.length_drop]; omega
      · intro h; have := congrArg List.length h; simp only [List.length_drop, List.length_nil] at this; omega
    · exact .small (-((ds.length : Int) + k)).toNat (by omega)

theorem displayed_iff {d : Double} (hd : IsDouble d.mant d.exp) {s : Str} : Displayed d s ↔ displayFloat d = s := by
  unfold Displayed displayFloat
  by_cases hm : d.mant = 0
  · simp only [hm, if_true, ne_eq, not_true_eq_false, false_and, or_false, true_and]
    constructor
    · rintro ⟨t, rfl, rfl⟩; rfl
    · rintro rfl; exact ⟨_, rfl, rfl⟩
  · have hs := shortest_decimal hd hm
    simp only [hm, if_false, false_and, false_or, ne_eq, not_false_eq_true, true_and]
    generalize decimalBelow d.mant d.exp 1384 = p at *
    have hD := shortest_ne_zero hm hs
    constructor
    · rintro ⟨t, rfl, D, k, ds, u, h1, h2, h3, h4, h5⟩
      obtain ⟨rfl, rfl⟩ := shortest_unique hd h1 hs
      have hu := (digitsText_nonzero.1 ⟨ds, h2, h3, h4⟩).2
      have hne : u ≠ [] := (digitsText_iff.1 h2).1
      rw [hu, (plain_iff hne).1 h5]
    · rintro rfl
      obtain ⟨ds, h2, h3, h4⟩ := digitsText_nonzero.2 ⟨hD, rfl⟩
      exact ⟨_, rfl, p.1, p.2, ds, _, hs, h2, h3, h4, (plain_iff (natDigits_props p.1).2.2.1).2 rfl⟩

end Reading
end Oid4vci
