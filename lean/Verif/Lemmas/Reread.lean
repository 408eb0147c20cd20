import Verif.Lemmas.Survive
import Verif.Lemmas.JsonDeep
import Verif.Lemmas.Magnitude
import Verif.Lemmas.Fits
import Verif.Spec.Near

/-! What is read when a document has been written. -/

namespace Oid4vci

open Spec Json

/-! ### Every number is read -/

theorem top_low : surelyRead = 17976931348623150 * 10 ^ 292 := by decide +kernel

theorem top_high : tooLarge < 17976931348623159 * 10 ^ 292 := by decide +kernel

theorem top_read : ∀ i : Fin 8, (fromParts (17976931348623150 + i.1) 292).isSome = true := by decide +kernel

/-- The decimals of 17 digits near the largest double. -/
theorem top_decimal {D : Nat} {k : Int} (hD : D < 10 ^ 17) (h1 : (surelyRead : ℚ) < D * 10 ^ k)
    (h2 : (D : ℚ) * 10 ^ k < tooLarge) : k = 292 ∧ 17976931348623150 < D ∧ D < 17976931348623159 := by
  have hc : (0 : ℚ) < 10 ^ (292 : Int) := pow10_pos 292
  have e0 : ((10 ^ 292 : Nat) : ℚ) = 10 ^ (292 : Int) := by rw [Nat.cast_pow, Nat.cast_ofNat]; rfl
  have l1 : (surelyRead : ℚ) = 17976931348623150 * 10 ^ (292 : Int) := by
    rw [top_low, Nat.cast_mul, e0, Nat.cast_ofNat]
  have l2 : (tooLarge : ℚ) < 17976931348623159 * 10 ^ (292 : Int) := by
    have := (Nat.cast_lt (α := ℚ)).2 top_high
    rwa [Nat.cast_mul, e0, Nat.cast_ofNat] at this
  rw [l1] at h1
  have h2 := h2.trans l2
  have hDq : (D : ℚ) < 10 ^ 17 := by exact_mod_cast hD
  rcases lt_trichotomy k 292 with hlt | rfl | hgt
  · exfalso
    have h3 : (10 : ℚ) ^ k ≤ 10 ^ (291 : Int) := zpow_le_zpow_right₀ (by norm_num) (by omega)
    have h4 : (10 : ℚ) ^ (292 : Int) = 10 ^ (291 : Int) * 10 := by
      rw [show (292 : Int) = 291 + 1 by norm_num, zpow_add₀ (by norm_num)]; rfl
    have h5 : (D : ℚ) * 10 ^ k ≤ 10 ^ 17 * 10 ^ (291 : Int) :=
      mul_le_mul hDq.le h3 (pow10_pos k).le (by norm_num)
    have h6 := pow10_pos 291
    rw [h4] at h1
    clear l1 l2 h2 hc e0 h4 h3
    generalize (10 : ℚ) ^ (291 : Int) = c at *
    linarith
  · refine ⟨rfl, ?_, ?_⟩
    · have := lt_of_mul_lt_mul_right h1 hc.le
      exact_mod_cast this
    · have := lt_of_mul_lt_mul_right h2 hc.le
      exact_mod_cast this
  · exfalso
    obtain ⟨j, hj⟩ := Int.eq_ofNat_of_zero_le (show 0 ≤ k - 293 by omega)
    have h4 : (10 : ℚ) ^ k = ((10 ^ j * 10 : Nat) : ℚ) * 10 ^ (292 : Int) := by
      rw [show k = (j : Int) + 1 + 292 by omega, zpow_add₀ (by norm_num), zpow_add₀ (by norm_num), zpow_natCast,
        zpow_one]
      rw [Nat.cast_mul, Nat.cast_pow, Nat.cast_ofNat]
    rw [h4, ← mul_assoc] at h1 h2
    have a := lt_of_mul_lt_mul_right h1 hc.le
    have b := lt_of_mul_lt_mul_right h2 hc.le
    have a' : 17976931348623150 < D * (10 ^ j * 10) := by exact_mod_cast a
    have b' : D * (10 ^ j * 10) < 17976931348623159 := by exact_mod_cast b
    rw [← Nat.mul_assoc] at a' b'
    omega

theorem top_value : 17976931348623157 * 10 ^ 292 ≤ (2 ^ 53 - 1) * 2 ^ 971 ∧
    2 * ((2 ^ 53 - 1) * 2 ^ 971) < (17976931348623157 + 17976931348623158) * 10 ^ 292 := by decide +kernel

/-- `17976931348623158e292` is not the shortest decimal of the largest double. -/
theorem top_shortest {m : Nat} {e : Int} {D : Nat} (h : Shortest m e D 292) : D ≠ 17976931348623158 := by
  rintro rfl
  have h1 : RoundsTo (((17976931348623158 : Nat) : ℚ) * 10 ^ (292 : Int)) (2 ^ 53 - 1) 971 :=
    (denotes_iff (by norm_num)).1 (by decide +kernel)
  have h2 : RoundsTo (((17976931348623157 : Nat) : ℚ) * 10 ^ (292 : Int)) (2 ^ 53 - 1) 971 :=
    (denotes_iff (by norm_num)).1 (by decide +kernel)
  obtain ⟨rfl, rfl⟩ := roundsTo_unique (mul_nonneg (Nat.cast_nonneg _) (pow10_pos _).le) h.1 h1
  have h3 := (h.2.2 _ h2).1
  have e0 : ((10 ^ 292 : Nat) : ℚ) = 10 ^ (292 : Int) := by rw [Nat.cast_pow, Nat.cast_ofNat]; rfl
  have e1 : (((2 ^ 53 - 1) * 2 ^ 971 : Nat) : ℚ) = value (2 ^ 53 - 1) 971 := by
    rw [value, Nat.cast_mul, Nat.cast_pow (2 : Nat) 971, Nat.cast_ofNat (R := ℚ) (n := 2), ← zpow_natCast 2 971,
      Nat.cast_ofNat (R := Int)]
  have a := (Nat.cast_le (α := ℚ)).2 top_value.1
  have b := (Nat.cast_lt (α := ℚ)).2 top_value.2
  rw [Nat.cast_mul, e0, e1] at a
  rw [Nat.cast_mul 2, e1, Nat.cast_mul, e0] at b
  clear h h1 h2
  generalize value (2 ^ 53 - 1) 971 = v at *
  have hc : (0 : ℚ) < 10 ^ (292 : Int) := pow10_pos 292
  generalize (10 : ℚ) ^ (292 : Int) = c at *
  clear e0 e1
  push_cast at a b h3
  rw [abs_of_nonpos (by linarith), abs_of_nonneg (by linarith)] at h3
  linarith

theorem readable (d : Double) (hd : IsDouble d.mant d.exp) : ∃ d', readFloat (printFloat d) = some d' := by
  have hs := shown_printFloat hd
  obtain ⟨-, hn, i, f, x, hp, hcase⟩ := shown_parts hs
  obtain ⟨i', f', x', hp', hr⟩ := shown_rounds hd hs
  obtain ⟨rfl, rfl, rfl⟩ := parts_unique hp hp'
  by_cases hm : magnitude i f x ≤ surelyRead
  · obtain ⟨hi, hf⟩ := parts_lt hp
    obtain ⟨m, e, h⟩ := partsReadAs_of_small hi hf hm
    exact ⟨⟨decide ((printFloat d).head? = some '-'), m, e⟩, (readFloat_parts hp).2 ⟨by simp, h⟩⟩
  · have hm := not_le.1 hm
    unfold magnitude at hm
    have hlarge : (10 : ℚ) ^ 17 ≤ surelyRead := by
      have : 10 ^ 17 ≤ surelyRead := by decide +kernel
      have := (Nat.cast_le (α := ℚ)).2 this
      rwa [Nat.cast_pow, Nat.cast_ofNat] at this
    rcases hcase with ⟨-, h, -⟩ | ⟨-, D, k, n, hsh, -, -, hDn, ⟨c1, c2, c3, c4⟩ | ⟨-, c3, c4⟩⟩
    · exfalso
      rw [h, Nat.cast_zero, zero_mul] at hm
      generalize (surelyRead : ℚ) = b at *
      linarith
    · exfalso
      have h1 : D * 10 ^ (k.toNat + 1) < 10 ^ 17 := by
        calc D * 10 ^ (k.toNat + 1) < 10 ^ n * 10 ^ (k.toNat + 1) := Nat.mul_lt_mul_of_pos_right hDn (by positivity)
          _ = 10 ^ (n + (k.toNat + 1)) := (Nat.pow_add _ _ _).symm
          _ ≤ 10 ^ 17 := Nat.pow_le_pow_right (by decide) (by omega)
      have h2 : ((D * 10 ^ (k.toNat + 1) : Nat) : ℚ) < 10 ^ 17 := by exact_mod_cast h1
      rw [c3, c4, zpow_neg_one] at hm
      generalize (surelyRead : ℚ) = b at *
      generalize ((D * 10 ^ (k.toNat + 1) : Nat) : ℚ) = N at *
      linarith
    · have hlt := hr.1
      rw [c3, c4] at hm hlt
      obtain ⟨rfl, a, b⟩ := top_decimal (shortest_digits hsh) hm hlt
      have := top_shortest hsh
      have h9 := top_read ⟨D - 17976931348623150, by omega⟩
      rw [show 17976931348623150 + (D - 17976931348623150) = D by omega] at h9
      obtain ⟨⟨m, e⟩, h⟩ := Option.isSome_iff_exists.1 h9
      obtain ⟨m0, e0, q1, q2⟩ := (fromParts_iff (by omega)).1 h
      refine ⟨⟨d.neg, m, e⟩, (readAs_iff hp).1 (readAs_of_parts hp hn ?_ (m0 := m0) (e0 := e0) ?_ ?_)⟩
      · rw [c3]; omega
      · rw [c3]; exact q1
      · rw [c4]; exact q2

theorem scaled_double {x : ℚ} {k : Int} {m : Nat} {e : Int} (h : Scaled x k m e) : IsDouble m e := by
  induction h with
  | up _ _ _ _ _ _ _ _ h => exact h.2.1
  | zero => exact ⟨by norm_num, by norm_num, by norm_num, .inr rfl⟩
  | down _ _ _ _ _ _ _ _ _ h => exact h.2.1
  | far _ _ _ _ _ _ _ _ _ _ _ _ ih => exact ih

theorem reread_float (d : Double) (hd : IsDouble d.mant d.exp) :
    ∃ d', readFloat (printFloat d) = some d' ∧ Close d d' := by
  obtain ⟨d', h⟩ := readable d hd
  have hr := (readFloat_printFloat hd).1 h
  have hs := shown_printFloat hd
  obtain ⟨hn, _, _, _, _, -, -, -, -, hsc⟩ := shown_read hd hs hr
  exact ⟨d', h, scaled_double hsc, hn, shown_close hd hs hr⟩

mutual
theorem reread_near (v : Json) (h : RustNumbers v) : ∃ w, reread v = some w ∧ Near v w := by
  match v, h with
  | .null, _ | .bool _, _ | .str _, _ | .num _, _ => exact ⟨_, rfl, rfl⟩
  | .float d, h =>
    rw [RustNumbers] at h
    obtain ⟨d', h1, h2⟩ := reread_float d h
    exact ⟨.float d', by rw [reread, h1]; rfl, d', rfl, h2⟩
  | .arr xs, h =>
    rw [RustNumbers] at h
    obtain ⟨ys, h1, h2⟩ := reread_nearList xs h
    exact ⟨.arr ys, by rw [reread, h1]; rfl, ys, rfl, h2⟩
  | .obj kvs, h =>
    rw [RustNumbers] at h
    obtain ⟨ys, h1, h2⟩ := reread_nearMembers kvs h
    exact ⟨.obj ys, by rw [reread, h1]; rfl, ys, rfl, h2⟩
theorem reread_nearList (xs : List Json) (h : RustNumbersList xs) :
    ∃ ys, rereadList xs = some ys ∧ NearList xs ys := by
  match xs, h with
  | [], _ => exact ⟨_, rfl, rfl⟩
  | x :: xs, h =>
    rw [RustNumbersList] at h
    obtain ⟨y, h1, h2⟩ := reread_near x h.1
    obtain ⟨ys, h3, h4⟩ := reread_nearList xs h.2
    exact ⟨y :: ys, by rw [rereadList, h1, h3]; rfl, y, ys, rfl, h2, h4⟩
theorem reread_nearMembers (xs : List (Str × Json)) (h : RustNumbersMembers xs) :
    ∃ ys, rereadMembers xs = some ys ∧ NearMembers xs ys := by
  match xs, h with
  | [], _ => exact ⟨_, rfl, rfl⟩
  | (k, x) :: xs, h =>
    rw [RustNumbersMembers] at h
    obtain ⟨y, h1, h2⟩ := reread_near x h.1
    obtain ⟨ys, h3, h4⟩ := reread_nearMembers xs h.2
    exact ⟨(k, y) :: ys, by rw [rereadMembers, h1, h3]; rfl, y, ys, rfl, h2, h4⟩
end

end Oid4vci
