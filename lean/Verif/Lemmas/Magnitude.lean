import Verif.Lemmas.Range
import Verif.Spec.Magnitude
import Mathlib.Algebra.Order.Field.Basic
import Mathlib.Algebra.Order.Field.Rat
import Mathlib.Tactic.Linarith
import Mathlib.Tactic.Positivity
import Mathlib.Tactic.Ring
import Mathlib.Tactic.FieldSimp

/-! Bounds within which numbers are read. -/

namespace Oid4vci

open Spec Json

/-! ### Truncation errors -/

theorem magnitude_prefix (p q : List Nat) (hq : ∀ d ∈ q, d < 10) (E : Int) :
    (numeral 10 p : ℚ) * 10 ^ (E + q.length) ≤ (numeral 10 (p ++ q) : ℚ) * 10 ^ E ∧
    (numeral 10 (p ++ q) : ℚ) * 10 ^ E < ((numeral 10 p : ℚ) + 1) * 10 ^ (E + q.length) := by
  have hlt : (numeral 10 q : ℚ) < 10 ^ q.length := by exact_mod_cast numeral_lt q hq
  have hz : (0 : ℚ) < 10 ^ E := zpow_pos (by norm_num) _
  rw [numeral_split, zpow_add₀ (by norm_num : (10 : ℚ) ≠ 0), zpow_natCast]
  push_cast
  have h0 : (0 : ℚ) ≤ numeral 10 q := Nat.cast_nonneg _
  constructor <;> nlinarith

/-- Two numbers with the same many leading digits are close to each other. -/
theorem close_of_prefix {A c T U : ℚ} (hA : 10 ^ 18 ≤ A) (hT1 : A * c ≤ T) (hT2 : T < (A + 1) * c)
    (hU1 : A * c ≤ U) (hU2 : U < (A + 1) * c) :
    T * 10 ^ 18 ≤ U * (10 ^ 18 + 1) ∧ U * 10 ^ 18 ≤ T * (10 ^ 18 + 1) := by
  constructor <;> nlinarith


/-- The number with the digits that were kept is close to the number of the text. -/
theorem kept_close {i f : List Nat} {x : Int} {k l : Nat} (hi : ∀ d ∈ i, d < 10) (hf : ∀ d ∈ f, d < 10)
    (hk : Longest [] i k) (hl : Longest (i.take k) f l) :
    magnitude i f x * 10 ^ 18 ≤
      (numeral 10 (i.take k ++ f.take l) : ℚ) * 10 ^ (x + (i.length - k : Nat) - l) * (10 ^ 18 + 1) ∧
    (numeral 10 (i.take k ++ f.take l) : ℚ) * 10 ^ (x + (i.length - k : Nat) - l) * 10 ^ 18 ≤
      magnitude i f x * (10 ^ 18 + 1) := by
  obtain ⟨k1, k2, k3⟩ := hk
  obtain ⟨l1, l2, l3⟩ := hl
  have many : ∀ {p : List Nat} {d : Nat}, d < 10 → 2 ^ 64 ≤ numeral 10 (p ++ [d]) →
      (10 ^ 18 : ℚ) ≤ numeral 10 p := by
    intro p d hd h
    rw [numeral_snoc] at h
    have : 10 ^ 18 ≤ numeral 10 p := by omega
    exact_mod_cast this
  unfold magnitude
  by_cases hki : k < i.length
  · have h3 := k3 hki
    rw [List.take_succ_eq_append_getElem hki, List.nil_append] at h3
    have hA := many (hi _ (List.getElem_mem hki)) h3
    have hT := magnitude_prefix (i.take k) (i.drop k ++ f)
      (by
        intro d hd
        rcases List.mem_append.1 hd with h | h
        · exact hi d (List.mem_of_mem_drop h)
        · exact hf d h) (x - f.length)
    have hU := magnitude_prefix (i.take k) (f.take l) (fun d hd => hf d (List.mem_of_mem_take hd))
      (x + (i.length - k : Nat) - l)
    rw [← List.append_assoc, List.take_append_drop] at hT
    have e1 : x - (f.length : Int) + ((i.drop k ++ f).length : Int) = x + (i.length - k : Nat) := by
      simp only [List.length_append, List.length_drop]; omega
    have e2 : x + (i.length - k : Nat) - (l : Int) + ((f.take l).length : Int) = x + (i.length - k : Nat) := by
      simp only [List.length_take]; omega
    rw [e1] at hT
    rw [e2] at hU
    exact close_of_prefix hA hT.1 hT.2 hU.1 hU.2
  · obtain rfl : k = i.length := by omega
    rw [List.take_length] at *
    by_cases hlf : l < f.length
    · have h3 := l3 hlf
      rw [List.take_succ_eq_append_getElem hlf, ← List.append_assoc] at h3
      have hA := many (hf _ (List.getElem_mem hlf)) h3
      have hT := magnitude_prefix (i ++ f.take l) (f.drop l) (fun d hd => hf d (List.mem_of_mem_drop hd))
        (x - f.length)
      rw [List.append_assoc, List.take_append_drop] at hT
      have e1 : x - (f.length : Int) + ((f.drop l).length : Int) = x + (i.length - i.length : Nat) - l := by
        simp only [List.length_drop]; omega
      rw [e1] at hT
      have hc : (0 : ℚ) < 10 ^ (x + (i.length - i.length : Nat) - (l : Int)) := zpow_pos (by norm_num) _
      exact close_of_prefix hA hT.1 hT.2 le_rfl (by linarith)
    · obtain rfl : l = f.length := by omega
      rw [List.take_length]
      have e1 : x + (i.length - i.length : Nat) - (f.length : Int) = x - f.length := by omega
      rw [e1]
      have h0 : (0 : ℚ) ≤ numeral 10 (i ++ f) * 10 ^ (x - (f.length : Int)) :=
        mul_nonneg (Nat.cast_nonneg _) (zpow_pos (by norm_num) _).le
      constructor <;> linarith

/-! ### The bounds -/

theorem digits_lt {ds : List Nat} {s : Str} (h : DigitsText ds s) : ∀ d ∈ ds, d < 10 := by
  obtain ⟨-, h2, rfl⟩ := digitsText_iff.1 h
  intro d hd
  obtain ⟨c, hc, rfl⟩ := List.mem_map.1 hd
  have := h2 c hc
  simp only [isDigit, Bool.and_eq_true, decide_eq_true_eq] at this
  omega

theorem parts_lt {s : Str} {i f : List Nat} {x : Int} (h : NumberParts s i f x) :
    (∀ d ∈ i, d < 10) ∧ ∀ d ∈ f, d < 10 := by
  obtain ⟨_, _, _, _, -, -, hi, hf, -⟩ := h
  refine ⟨digits_lt hi, ?_⟩
  rcases hf with ⟨-, rfl⟩ | ⟨t, ht, -⟩
  · simp
  · exact digits_lt ht

theorem longest_exists (pre ds : List Nat) (hp : numeral 10 pre < 2 ^ 64) : ∃ k, Longest pre ds k := by
  by_contra hcon
  have : ∀ k, k ≤ ds.length → numeral 10 (pre ++ ds.take k) < 2 ^ 64 := by
    intro k
    induction k with
    | zero => simpa using hp
    | succ k ih =>
      intro hk
      by_contra hlt
      exact hcon ⟨k, by omega, ih (by omega), fun _ => by omega⟩
  exact hcon ⟨ds.length, le_rfl, this _ le_rfl, fun h => absurd h (lt_irrefl _)⟩

theorem small_fits : surelyRead * (10 ^ 18 + 1) * (2 ^ 53 + 1) * (2 ^ 53 + 1) <
    tooLarge * 10 ^ 18 * 2 ^ 53 * 2 ^ 53 := by decide +kernel

theorem small_exponent : surelyRead * (10 ^ 18 + 1) < 10 ^ 309 * 10 ^ 18 := by decide +kernel

theorem large_fits : tooLarge * (10 ^ 18 + 1) * 2 ^ 53 * 2 ^ 53 <
    surelyRefused * 10 ^ 18 * (2 ^ 53 - 1) * (2 ^ 53 - 1) := by decide +kernel

theorem cast_large {a b : Nat} (h : a * (10 ^ 18 + 1) * 2 ^ 53 * 2 ^ 53 <
    b * 10 ^ 18 * (2 ^ 53 - 1) * (2 ^ 53 - 1)) :
    (a : ℚ) * (10 ^ 18 + 1) * 2 ^ 53 * 2 ^ 53 < b * 10 ^ 18 * (2 ^ 53 - 1) * (2 ^ 53 - 1) := by
  have := (Nat.cast_lt (α := ℚ)).2 h
  push_cast at this
  norm_num at this ⊢
  linarith

theorem large_significand : 2 ^ 64 * (10 ^ 18 + 1) < surelyRefused * 10 ^ 18 := by decide +kernel

set_option exponentiation.threshold 400 in
theorem fromParts_of_small {S : Nat} {e : Int} (hS : S < 2 ^ 64)
    (h : (S : ℚ) * 10 ^ e * 10 ^ 18 ≤ surelyRead * (10 ^ 18 + 1)) : ∃ m' e', fromParts S e = some (m', e') := by
  by_cases he : e < 0
  · unfold fromParts
    simp only [if_pos he]
    exact ⟨_, _, rfl⟩
  by_cases h0 : S = 0
  · unfold fromParts
    simp only [if_neg he, if_pos h0]
    exact ⟨_, _, rfl⟩
  obtain ⟨n, rfl⟩ := Int.eq_ofNat_of_zero_le (not_lt.1 he)
  rw [zpow_natCast] at h
  have hU : S * 10 ^ n * 10 ^ 18 ≤ surelyRead * (10 ^ 18 + 1) := by exact_mod_cast h
  have hn : n ≤ 308 := by
    by_contra hn
    have h1 := Nat.pow_le_pow_right (n := 10) (by decide) (show 309 ≤ n by omega)
    have h2 : 10 ^ n ≤ S * 10 ^ n := Nat.le_mul_of_pos_left _ (by omega)
    have h3 := small_exponent
    generalize surelyRead = b at *
    exact absurd (hU.trans_lt h3) (not_lt.2 (Nat.mul_le_mul_right _ (h1.trans h2)))
  have hs := nearest_rounds (sig_fits hS)
  have hp := nearest_rounds (pow10_fits hn)
  obtain ⟨a1, -⟩ := nat_error hs
  obtain ⟨a2, -⟩ := nat_error hp
  have b1 := value_nonneg (nearest S 1).1 (nearest S 1).2
  have b2 := value_nonneg (nearest (10 ^ n) 1).1 (nearest (10 ^ n) 1).2
  have hfit : value (nearest S 1).1 (nearest S 1).2 * value (nearest (10 ^ n) 1).1 (nearest (10 ^ n) 1).2 < tooLarge := by
    have h3 : (surelyRead : ℚ) * (10 ^ 18 + 1) * (2 ^ 53 + 1) * (2 ^ 53 + 1) < tooLarge * 10 ^ 18 * 2 ^ 53 * 2 ^ 53 := by
      exact_mod_cast small_fits
    rw [Nat.cast_pow, Nat.cast_ofNat] at a2
    generalize value (nearest S 1).1 (nearest S 1).2 = r at *
    generalize value (nearest (10 ^ n) 1).1 (nearest (10 ^ n) 1).2 = p at *
    have hSn : (0 : ℚ) ≤ S := Nat.cast_nonneg _
    have hPn : (0 : ℚ) ≤ (10 : ℚ) ^ n := by positivity
    generalize (10 : ℚ) ^ n = P at *
    have h4 : r * 2 ^ 53 * (p * 2 ^ 53) ≤ S * (2 ^ 53 + 1) * (P * (2 ^ 53 + 1)) :=
      mul_le_mul a1 a2 (by positivity) (by positivity)
    have h5 := mul_le_mul_of_nonneg_right h (show (0 : ℚ) ≤ (2 ^ 53 + 1) * (2 ^ 53 + 1) by norm_num)
    generalize (tooLarge : ℚ) = a at *
    generalize (surelyRead : ℚ) = b at *
    nlinarith
  obtain ⟨m', e', hr⟩ := roundsTo_exists (mul_nonneg b1 b2) hfit
  refine ⟨m', e', (fromParts_iff hS).2 ⟨_, _, hs, .up _ n _ _ _ _ hn ?_ hr⟩⟩
  simpa using hp

theorem partsReadAs_of_small {i f : List Nat} {x : Int} (hi : ∀ d ∈ i, d < 10) (hf : ∀ d ∈ f, d < 10)
    (h : magnitude i f x ≤ surelyRead) : ∃ m e, PartsReadAs i f x m e := by
  obtain ⟨k, hk⟩ := longest_exists [] i (by simp [numeral])
  obtain ⟨l, hl⟩ := longest_exists (i.take k) f hk.2.1
  have hc := (kept_close hi hf hk hl (x := x)).2
  have : magnitude i f x * (10 ^ 18 + 1) ≤ (surelyRead : ℚ) * (10 ^ 18 + 1) := by linarith
  obtain ⟨m, e, hfp⟩ := fromParts_of_small hl.2.1 (hc.trans this)
  exact ⟨m, e, k, l, hk, hl, (fromParts_iff hl.2.1).1 hfp⟩

theorem not_partsReadAs_of_large {i f : List Nat} {x : Int} (hi : ∀ d ∈ i, d < 10) (hf : ∀ d ∈ f, d < 10)
    (h : (surelyRefused : ℚ) ≤ magnitude i f x) (m : Nat) (e : Int) : ¬ PartsReadAs i f x m e := by
  rintro ⟨k, l, hk, hl, m0, e0, hm, hr⟩
  have hc := (kept_close hi hf hk hl (x := x)).1
  have hS64 := hl.2.1
  generalize x + (i.length - k : Nat) - (l : Int) = z at *
  generalize numeral 10 (i.take k ++ f.take l) = S at *
  have hlow : (surelyRefused : ℚ) * 10 ^ 18 ≤ S * 10 ^ z * (10 ^ 18 + 1) := by linarith
  have hS : (0 : ℚ) ≤ S := Nat.cast_nonneg _
  have h64 : (S : ℚ) < 2 ^ 64 := by exact_mod_cast hS64
  have h3 : (2 : ℚ) ^ 64 * (10 ^ 18 + 1) < surelyRefused * 10 ^ 18 := by exact_mod_cast large_significand
  have hz : 0 ≤ z := by
    by_contra hz
    have h1 : (10 : ℚ) ^ z ≤ 1 := zpow_le_one_of_nonpos₀ (by norm_num) (by omega)
    have h2 : (S : ℚ) * 10 ^ z ≤ S * 1 := mul_le_mul_of_nonneg_left h1 hS
    linarith
  obtain ⟨-, a1⟩ := nat_error hm
  generalize hv : value m0 e0 = v at *
  cases hr with
  | zero k hk =>
    have : S = 0 := by
      have : (S : ℚ) ≤ 0 := by linarith
      exact_mod_cast le_antisymm this hS
    subst this
    simp only [Nat.cast_zero, zero_mul] at hlow
    linarith
  | up _ n p pe _ _ hn hp hr =>
    rw [zpow_natCast] at hlow
    have hp' : RoundsTo ((10 ^ n : Nat) : ℚ) p pe := by simpa using hp
    obtain ⟨-, a2⟩ := nat_error hp'
    have hlt := hr.1
    rw [Nat.cast_pow, Nat.cast_ofNat] at a2
    have hPn : (0 : ℚ) ≤ (10 : ℚ) ^ n := by positivity
    have b2 := value_nonneg p pe
    have b1 := value_nonneg m0 e0
    rw [hv] at b1
    have h3 : (tooLarge : ℚ) * (10 ^ 18 + 1) * 2 ^ 53 * 2 ^ 53 <
        surelyRefused * 10 ^ 18 * (2 ^ 53 - 1) * (2 ^ 53 - 1) := cast_large large_fits
    clear hr hp hp' h64 hS64 hc h hm hk hl
    generalize (tooLarge : ℚ) = a at *
    generalize (surelyRefused : ℚ) = b at *
    generalize (10 : ℚ) ^ n = P at *
    generalize value p pe = q at *
    have h4 : S * (2 ^ 53 - 1) * (P * (2 ^ 53 - 1)) ≤ v * 2 ^ 53 * (q * 2 ^ 53) :=
      mul_le_mul a1 a2 (by have : (0:ℚ) ≤ 2 ^ 53 - 1 := by norm_num
                           positivity) (by positivity)
    have h5 := mul_le_mul_of_nonneg_right hlow (show (0 : ℚ) ≤ (2 ^ 53 - 1) * (2 ^ 53 - 1) by norm_num)
    nlinarith
  | down _ k _ _ _ _ h0 _ _ _ => omega
  | far _ k _ _ _ _ _ _ h0 _ _ _ => omega

end Oid4vci
