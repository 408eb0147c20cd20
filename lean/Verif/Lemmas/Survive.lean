import Verif.Lemmas.Json
import Mathlib.Algebra.Order.Floor.Ring
import Mathlib.Data.Rat.Floor

/-! Numbers that are written and read. -/

namespace Oid4vci
namespace Json

open Spec

/-! ### Numbers that double precision represents -/

/-- Significands of 53 bits are represented, with any moderate power of two. -/
theorem exact_double {a j : Nat} (ha : a < 2 ^ 53) (hj : j ≤ 900) :
    ∃ m e, RoundsTo ((a : ℚ) * 2 ^ j) m e ∧ value m e = a * 2 ^ j := by
  by_cases h0 : a = 0
  · subst h0
    have : value 0 (-1074) = (0 : Nat) * 2 ^ j := by simp [value]
    exact ⟨0, -1074, this ▸ roundsTo_self ⟨by norm_num, by norm_num, by norm_num, .inr rfl⟩, this⟩
  · have h1 := Nat.log2_self_le h0
    have h2 := Nat.lt_log2_self (n := a)
    have h3 : a.log2 ≤ 52 := by
      by_contra hc
      have := Nat.pow_le_pow_right (n := 2) (by decide) (show 53 ≤ a.log2 by omega)
      omega
    have hm : value (a * 2 ^ (52 - a.log2)) ((j : Int) - ((52 - a.log2 : Nat) : Int)) = a * 2 ^ j := by
      unfold value
      rw [zpow_sub₀ (by norm_num), zpow_natCast, zpow_natCast]
      push_cast
      field_simp
    refine ⟨_, _, hm ▸ roundsTo_self ⟨?_, by omega, by omega, .inl ?_⟩, hm⟩
    · calc a * 2 ^ (52 - a.log2) < 2 ^ (a.log2 + 1) * 2 ^ (52 - a.log2) :=
          Nat.mul_lt_mul_of_pos_right h2 (by positivity)
        _ = 2 ^ 53 := by rw [← Nat.pow_add]; congr 1; omega
    · calc 2 ^ 52 = 2 ^ a.log2 * 2 ^ (52 - a.log2) := by rw [← Nat.pow_add]; congr 1; omega
        _ ≤ _ := Nat.mul_le_mul_right _ h1

/-- The powers of ten that are represented. -/
theorem exact_pow10 {k : Nat} (hk : k ≤ 22) : ∃ m e, RoundsTo (10 ^ k : ℚ) m e ∧ value m e = 10 ^ k := by
  have h5 : 5 ^ k < 2 ^ 53 := (Nat.pow_le_pow_right (by decide) hk).trans_lt (by decide)
  obtain ⟨m, e, h1, h2⟩ := exact_double h5 (show k ≤ 900 by omega)
  have : ((5 ^ k : Nat) : ℚ) * 2 ^ k = 10 ^ k := by
    push_cast
    rw [← mul_pow]; norm_num
  rw [this] at h1 h2
  exact ⟨m, e, h1, h2⟩

/-! ### Reading digits that all fit -/

theorem readAs_of_parts {s : Str} {i f : List Nat} {x : Int} (hp : NumberParts s i f x) {d : Double}
    (hs : s.head? = some '-' ↔ d.neg = true) (hn : numeral 10 (i ++ f) < 2 ^ 64) {m0 : Nat} {e0 : Int}
    (hr : RoundsTo (numeral 10 (i ++ f)) m0 e0) (hx : Scaled (value m0 e0) (x - f.length) d.mant d.exp) :
    ReadAs s d := by
  refine ⟨i, f, x, hp, hs.symm, i.length, f.length, ⟨le_rfl, ?_, fun h => absurd h (lt_irrefl _)⟩,
    ⟨le_rfl, ?_, fun h => absurd h (lt_irrefl _)⟩, m0, e0, ?_, ?_⟩
  · rw [List.nil_append, List.take_length]
    exact (numeral_le_append i f).trans_lt hn
  · rwa [List.take_length, List.take_length]
  · rwa [List.take_length, List.take_length]
  · rw [Nat.sub_self, Nat.cast_zero, add_zero]
    exact hx

/-! ### Decimals of 15 digits -/

theorem tiny_le_pow10 {k : Int} (hk : -22 ≤ k) : (2 : ℚ) ^ (-1022 : Int) ≤ 10 ^ k :=
  calc (2 : ℚ) ^ (-1022 : Int) ≤ 2 ^ (-74 : Int) := pow2_le (by norm_num)
    _ ≤ 10 ^ (-22 : Int) := by norm_num
    _ ≤ 10 ^ k := zpow_le_zpow_right₀ (by norm_num) hk

/-- The shortest decimal of the double of a decimal of 15 digits is that decimal. -/
theorem same_decimal {D : Nat} {k : Int} (h0 : D ≠ 0) (hD : D < 10 ^ 15) (hk : -22 ≤ k) {m : Nat} {e : Int}
    (hr : RoundsTo (D * 10 ^ k) m e) (hm : m ≠ 0) {D' : Nat} {k' : Int} (hs : Shortest m e D' k') :
    k ≤ k' ∧ D = D' * 10 ^ (k' - k).toNat := by
  have hle := hs.2.1 _ _ hr
  refine ⟨hle, ?_⟩
  have hD' := shortest_ne_zero hm hs
  have h10 := pow10_pos k
  have e1 : (D' : ℚ) * 10 ^ k' = ((D' * 10 ^ (k' - k).toNat : Nat) : ℚ) * 10 ^ k := by
    push_cast
    rw [← zpow_natCast, Int.toNat_of_nonneg (by omega), mul_assoc, ← zpow_add₀ (by norm_num)]
    congr 2
    omega
  have hN0 : D' * 10 ^ (k' - k).toNat ≠ 0 := Nat.mul_ne_zero hD' (by positivity)
  have hq' := hs.1
  rw [e1] at hq'
  generalize D' * 10 ^ (k' - k).toNat = N at *
  have big : ∀ {n : Nat}, n ≠ 0 → (2 : ℚ) ^ (-1022 : Int) ≤ n * 10 ^ k := by
    intro n hn
    have : (1 : ℚ) ≤ n := by exact_mod_cast Nat.one_le_iff_ne_zero.2 hn
    calc (2 : ℚ) ^ (-1022 : Int) ≤ 1 * 10 ^ k := by rw [one_mul]; exact tiny_le_pow10 hk
      _ ≤ _ := mul_le_mul_of_nonneg_right this h10.le
  have a1 := abs_le.1 (roundsTo_error hr (big h0))
  have a2 := abs_le.1 (roundsTo_error hq' (big hN0))
  have hu : (2 : ℚ) ^ (-53 : Int) * 10 ^ 15 ≤ 1 / 5 := by norm_num
  have hu0 := pow2_pos (-53)
  generalize (2 : ℚ) ^ (-53 : Int) = u at *
  generalize (10 : ℚ) ^ k = c at *
  generalize value m e = v at *
  have hDq : (D : ℚ) < 10 ^ 15 := by exact_mod_cast hD
  have hDu : (D : ℚ) * u ≤ 1 / 5 := by nlinarith
  have hu1 : u ≤ 1 / 5 := by nlinarith
  have key : ((D : ℚ) - N) ≤ (D + N) * u ∧ ((N : ℚ) - D) ≤ (D + N) * u := by
    constructor
    · have : ((D : ℚ) - N) * c ≤ ((D + N) * u) * c := by nlinarith
      exact le_of_mul_le_mul_right this h10
    · have : ((N : ℚ) - D) * c ≤ ((D + N) * u) * c := by nlinarith
      exact le_of_mul_le_mul_right this h10
  rcases Nat.lt_trichotomy D N with hlt | heq | hgt
  · exfalso
    have : (D : ℚ) + 1 ≤ N := by exact_mod_cast hlt
    nlinarith [key.2]
  · exact heq
  · exfalso
    have : (N : ℚ) + 1 ≤ D := by exact_mod_cast hgt
    nlinarith [key.1]

theorem survives_zero (neg : Bool) (e : Int) (h : IsDouble 0 e) : Survives ⟨neg, 0, e⟩ := by
  have he : e = -1074 := by
    rcases h.2.2.2 with h | h
    · norm_num at h
    · exact h
  subst he
  refine ⟨h, fun s hs => ?_⟩
  obtain ⟨-, hn, i, f, x, hp, ⟨-, h1, h2⟩ | ⟨h1, -⟩⟩ := shown_parts hs
  · have hz : RoundsTo (0 : ℚ) 0 (-1074) := by
      have := roundsTo_self h
      rwa [value, Nat.cast_zero, zero_mul] at this
    refine readAs_of_parts hp hn (by rw [h1]; norm_num) (m0 := 0) (e0 := -1074) (by rw [h1]; exact_mod_cast hz) ?_
    rw [h2]
    obtain ⟨p, pe, q1, q2⟩ := exact_pow10 (show 1 ≤ 22 by norm_num)
    refine .down _ 1 p pe _ _ (by norm_num) (by norm_num) q1 ?_
    rw [value, Nat.cast_zero, zero_mul, zero_div]
    exact hz
  · exact absurd rfl h1

/-- The doubles of decimals with up to 15 digits survive, unless they are large integers that are written
with a superfluous `.0`. -/
theorem survives_decimal {D : Nat} {k : Int} (hD : D < 10 ^ 15) (h1 : -22 ≤ k) (h2 : k ≤ 22)
    (h3 : 0 < k → ¬ 10 ∣ D) (h4 : ¬ ((10 : ℚ) ^ 15 ≤ D * 10 ^ k ∧ (D : ℚ) * 10 ^ k < 10 ^ 16)) {neg : Bool} {m : Nat}
    {e : Int} (hr : RoundsTo (D * 10 ^ k) m e) : Survives ⟨neg, m, e⟩ := by
  by_cases hm : m = 0
  · subst hm
    exact survives_zero neg e hr.2.1
  have h0 : D ≠ 0 := by
    rintro rfl
    rw [Nat.cast_zero, zero_mul] at hr
    exact hm (roundsTo_zero hr)
  refine ⟨hr.2.1, fun s hs => ?_⟩
  obtain ⟨-, hn, i, f, x, hp, ⟨h, -⟩ | ⟨-, D', k', n, hsh, hD0, -, hDn, hcase⟩⟩ := shown_parts hs
  · exact absurd h hm
  obtain ⟨hkk, hDD⟩ := same_decimal h0 hD h1 hr hm hsh
  have hq : (D' : ℚ) * 10 ^ k' = D * 10 ^ k := by
    rw [hDD]
    push_cast
    rw [← zpow_natCast, Int.toNat_of_nonneg (by omega), mul_assoc, ← zpow_add₀ (by norm_num)]
    congr 2
    omega
  rcases hcase with ⟨c1, c2, c3, c4⟩ | ⟨c1, c3, c4⟩
  · -- written as an integer
    have hz : (10 : ℚ) ^ k' = ((10 ^ k'.toNat : Nat) : ℚ) := by
      push_cast
      rw [← zpow_natCast, Int.toNat_of_nonneg c1]
    have hN : (((D' * 10 ^ k'.toNat : Nat) : ℚ)) = D * 10 ^ k := by
      rw [← hq, hz]; push_cast; ring
    have hlt : D' * 10 ^ k'.toNat < 10 ^ 16 := by
      calc D' * 10 ^ k'.toNat < 10 ^ n * 10 ^ k'.toNat := Nat.mul_lt_mul_of_pos_right hDn (by positivity)
        _ = 10 ^ (n + k'.toNat) := (Nat.pow_add _ _ _).symm
        _ ≤ 10 ^ 16 := Nat.pow_le_pow_right (by decide) (by omega)
    have hlt' : D' * 10 ^ k'.toNat < 10 ^ 15 := by
      by_contra hge
      rw [← hN] at h4
      exact h4 ⟨by exact_mod_cast not_lt.1 hge, by exact_mod_cast hlt⟩
    rw [Nat.pow_succ, ← Nat.mul_assoc] at c3
    generalize D' * 10 ^ k'.toNat = N at *
    obtain ⟨m0, e0, q1, q2⟩ := exact_double (a := 5 * N) (j := 1) (by omega) (by norm_num)
    obtain ⟨p, pe, r1, r2⟩ := exact_pow10 (show 1 ≤ 22 by norm_num)
    have e1 : ((5 * N : Nat) : ℚ) * 2 ^ 1 = ((N * 10 : Nat) : ℚ) := by push_cast; ring
    rw [e1] at q1 q2
    refine readAs_of_parts hp hn (by rw [c3]; omega) (m0 := m0) (e0 := e0) (by rw [c3]; exact q1) ?_
    rw [c4, q2]
    refine .down _ 1 p pe _ _ (by norm_num) (by norm_num) r1 ?_
    have : ((N * 10 : Nat) : ℚ) / value p pe = D * 10 ^ k := by rw [r2, ← hN]; push_cast; ring
    rw [this]
    exact hr
  · -- written with its digits
    have hDle : D' ≤ D := by rw [hDD]; exact Nat.le_mul_of_pos_right _ (by positivity)
    obtain ⟨m0, e0, q1, q2⟩ := exact_double (a := D') (j := 0) (by omega) (by norm_num)
    rw [pow_zero, mul_one] at q1 q2
    refine readAs_of_parts hp hn (by rw [c3]; omega) (m0 := m0) (e0 := e0) (by rw [c3]; exact q1) ?_
    rw [c4, q2]
    have hk' : k' ≤ 22 := by
      by_contra hc
      have h10 : (k' - k).toNat ≠ 0 := by omega
      by_cases hk : 0 < k
      · apply h3 hk
        rw [hDD]
        exact (dvd_pow_self 10 h10).mul_left _
      · have := Nat.pow_le_pow_right (n := 10) (by decide) (show 15 ≤ (k' - k).toNat by omega)
        have h5 : 10 ^ (k' - k).toNat ≤ D := by
          conv_rhs => rw [hDD]
          exact Nat.le_mul_of_pos_left _ (by omega)
        omega
    by_cases hneg : k' < 0
    · obtain ⟨p, pe, r1, r2⟩ := exact_pow10 (show (-k').toNat ≤ 22 by omega)
      have := Scaled.down (D' : ℚ) (-k').toNat p pe m e (by omega) (by omega) r1
      rw [Int.toNat_of_nonneg (by omega), neg_neg] at this
      apply this
      have e1 : (D' : ℚ) / value p pe = D * 10 ^ k := by
        rw [r2, ← hq, div_eq_mul_inv, ← zpow_natCast, ← zpow_neg, Int.toNat_of_nonneg (by omega), neg_neg]
      rw [e1]
      exact hr
    · obtain ⟨p, pe, r1, r2⟩ := exact_pow10 (show k'.toNat ≤ 22 by omega)
      have := Scaled.up (D' : ℚ) k'.toNat p pe m e (by omega) r1
      rw [Int.toNat_of_nonneg (by omega)] at this
      apply this
      have e1 : (D' : ℚ) * value p pe = D * 10 ^ k := by
        rw [r2, ← hq, ← zpow_natCast, Int.toNat_of_nonneg (by omega)]
      rw [e1]
      exact hr

/-! ### At most 17 digits -/

/-- The distance of doubles. -/
theorem double_gap {m m' : Nat} {e e' : Int} (h : IsDouble m e) (h' : IsDouble m' e') (hne : (m', e') ≠ (m, e)) :
    2 ^ (e - 1) ≤ |value m e - value m' e'| ∧ (m ≠ 2 ^ 52 → 2 ^ e ≤ |value m e - value m' e'|) := by
  have hp := pow2_pos e
  have half : (2 : ℚ) ^ (e - 1) * 2 = 2 ^ e := by
    rw [zpow_sub₀ (by norm_num)]; norm_num
  rcases le_or_gt e e' with hle | hlt
  · have hv : value m' e' = (m' * 2 ^ (e' - e).toNat : Nat) * 2 ^ e := by
      unfold value
      push_cast
      rw [mul_assoc, ← zpow_natCast, Int.toNat_of_nonneg (by omega), ← pow2_add]
      congr 2
      omega
    have hN : m ≠ m' * 2 ^ (e' - e).toNat := by
      intro hm
      have := value_inj (isDouble_iff.1 h).1 (isDouble_iff.1 h').1 (by rw [hv, ← hm]; rfl)
      exact hne (by rw [this.1, this.2])
    have key : 2 ^ e ≤ |value m e - value m' e'| := by
      rw [hv]
      unfold value
      generalize m' * 2 ^ (e' - e).toNat = N at *
      rw [← sub_mul, abs_mul, abs_of_pos hp]
      refine le_mul_of_one_le_left hp.le ?_
      have : (1 : Int) ≤ |(m : Int) - N| := Int.one_le_abs (by omega)
      exact_mod_cast this
    exact ⟨by linarith, fun _ => key⟩
  · have hm : 2 ^ 52 ≤ m := by
      rcases h.2.2.2 with h | h
      · exact h
      · have := h'.2.1
        omega
    have hle := pow2_le (show e' ≤ e - 1 by omega)
    have hp' := pow2_pos e'
    have h1 : (m' : ℚ) + 1 ≤ 2 ^ 53 := by exact_mod_cast h'.1
    have h2 : ((2 : ℚ) ^ 52) ≤ m := by exact_mod_cast hm
    have hv' : value m' e' ≤ (2 ^ 53 - 1) * 2 ^ (e - 1) := by
      unfold value
      calc (m' : ℚ) * 2 ^ e' ≤ (2 ^ 53 - 1) * 2 ^ e' := mul_le_mul_of_nonneg_right (by linarith) hp'.le
        _ ≤ _ := mul_le_mul_of_nonneg_left hle (by norm_num)
    have hle' := le_abs_self (value m e - value m' e')
    constructor
    · have : (2 : ℚ) ^ 52 * 2 ^ e ≤ value m e := mul_le_mul_of_nonneg_right h2 hp.le
      linarith
    · intro hne
      have h3 : ((2 : ℚ) ^ 52) + 1 ≤ m := by exact_mod_cast (show 2 ^ 52 + 1 ≤ m by omega)
      have : ((2 : ℚ) ^ 52 + 1) * 2 ^ e ≤ value m e := mul_le_mul_of_nonneg_right h3 hp.le
      have := pow2_pos (e - 1)
      linarith

/-- What is close enough to a double is rounded to it. -/
theorem roundsTo_near {q : ℚ} {m : Nat} {e : Int} (h : IsDouble m e) (hq : |q - value m e| < 2 ^ (e - 1))
    (hq' : m = 2 ^ 52 → |q - value m e| < 2 ^ (e - 2)) : RoundsTo q m e := by
  have half : (2 : ℚ) ^ (e - 1) * 2 = 2 ^ e := by rw [zpow_sub₀ (by norm_num)]; norm_num
  have quarter : (2 : ℚ) ^ (e - 2) * 4 = 2 ^ e := by rw [zpow_sub₀ (by norm_num)]; norm_num
  refine ⟨?_, h, fun m' e' h' => ?_⟩
  · rw [tooLarge_eq]
    have h1 : (m : ℚ) + 1 ≤ 2 ^ 53 := by exact_mod_cast h.1
    have h2 := pow2_le h.2.2.1
    have h3 := pow2_pos e
    have h4 := (abs_lt.1 hq).2
    have h5 : value m e ≤ (2 ^ 53 - 1) * 2 ^ e := mul_le_mul_of_nonneg_right (by linarith) h3.le
    have h6 : ((2 : ℚ) ^ 53 - 1 / 2) * 2 ^ e ≤ (2 ^ 53 - 1 / 2) * 2 ^ (971 : Int) :=
      mul_le_mul_of_nonneg_left h2 (by norm_num)
    generalize (2 : ℚ) ^ (971 : Int) = c at *
    linarith
  · by_cases hne : (m', e') = (m, e)
    · obtain ⟨rfl, rfl⟩ := Prod.mk.inj hne
      exact ⟨le_rfl, fun _ h => absurd rfl h⟩
    · obtain ⟨g1, g2⟩ := double_gap h h' hne
      have htri : |value m e - value m' e'| ≤ |q - value m e| + |q - value m' e'| := by
        rw [abs_sub_comm q (value m e)]
        exact abs_sub_le _ _ _
      have hlt : |q - value m e| < |q - value m' e'| := by
        by_cases hm : m = 2 ^ 52
        · have := hq' hm
          linarith
        · have := g2 hm
          linarith
      exact ⟨hlt.le, fun he => absurd he hlt.ne⟩

/-- The rounding error of any number. -/
theorem roundsTo_error' {q : ℚ} (hq0 : 0 ≤ q) {m : Nat} {e : Int} (h : RoundsTo q m e) :
    |q - value m e| ≤ q * 2 ^ (-53 : Int) + 2 ^ (-1075 : Int) := by
  have hq' : q = (q.num.toNat : ℚ) / q.den := by
    have h0 : (q.num.toNat : Int) = q.num := Int.toNat_of_nonneg (Rat.num_nonneg.2 hq0)
    conv_lhs => rw [← Rat.num_div_den q]
    rw [show ((q.num.toNat : Nat) : ℚ) = ((q.num.toNat : Int) : ℚ) from rfl, h0]
  obtain ⟨e0, Q, ha, hn⟩ := nearest_approx q.num.toNat q.den q.den_pos
  rw [hq', roundsTo_iff q.den_pos] at h
  rw [← hq'] at ha
  have hv := value_canon Q e0
  have he : canon Q e0 = (m, e) := hn.symm.trans h.1
  rw [he] at hv
  simp only at hv
  rw [hv]
  have hp := pow2_pos e0
  have hround : |q - value Q e0| = |q / 2 ^ e0 - Q| * 2 ^ e0 := by
    rw [← abs_of_pos hp, ← abs_mul, abs_of_pos hp]
    congr 1
    unfold value
    field_simp
  rw [hround]
  have h1 : |q / 2 ^ e0 - Q| * 2 ^ e0 ≤ 1 / 2 * 2 ^ e0 := mul_le_mul_of_nonneg_right ha.round.1 hp.le
  have h2 := pow2_pos (-1075)
  have h3 := pow2_pos (-53)
  rcases ha.ge with h0 | h0
  · have : (1 : ℚ) / 2 * 2 ^ e0 = 2 ^ (-1075 : Int) := by
      rw [h0, show (-1075 : Int) = -1074 + -1 by norm_num, pow2_add]
      generalize (2 : ℚ) ^ (-1074 : Int) = t
      rw [zpow_neg_one]
      ring
    have := mul_nonneg hq0 h3.le
    linarith
  · have h4 : (1 : ℚ) / 2 * 2 ^ e0 = 2 ^ (e0 + 52) * 2 ^ (-53 : Int) := by
      rw [← pow2_add, show e0 + 52 + -53 = -1 + e0 by omega, pow2_add]; norm_num
    have := mul_le_mul_of_nonneg_right h0 h3.le
    linarith

/-- The shortest decimal of a double has at most 17 digits. -/
theorem shortest_digits {m : Nat} {e : Int} {D : Nat} {k : Int} (h : Shortest m e D k) : D < 10 ^ 17 := by
  by_contra hge
  have hD : (10 : ℚ) ^ 17 ≤ D := by exact_mod_cast not_lt.1 hge
  have hd := h.1.2.1
  have h10 := pow10_pos k
  have hq0 : (0 : ℚ) ≤ D * 10 ^ k := mul_nonneg (Nat.cast_nonneg _) h10.le
  have err := (abs_le.1 (roundsTo_error' hq0 h.1)).2
  have hqlow : (10 : ℚ) ^ 17 * 10 ^ k ≤ D * 10 ^ k := mul_le_mul_of_nonneg_right hD h10.le
  have hp := pow2_pos e
  have half : (2 : ℚ) ^ (e - 1) * 2 = 2 ^ e := by rw [zpow_sub₀ (by norm_num)]; norm_num
  have quarter : (2 : ℚ) ^ (e - 2) * 4 = 2 ^ e := by rw [zpow_sub₀ (by norm_num)]; norm_num
  have tiny : (2 : ℚ) ^ (-1075 : Int) ≤ 2 ^ (e - 1) := pow2_le (by have := hd.2.1; omega)
  have hten : (10 : ℚ) ^ (k + 1) = 10 ^ k * 10 := by rw [zpow_add₀ (by norm_num)]; norm_num
  -- the multiple of the next power of ten
  have hv0 := value_nonneg m e
  obtain ⟨N, hN⟩ : ∃ N : Nat, |(N : ℚ) * 10 ^ (k + 1) - value m e| ≤ 10 ^ (k + 1) / 2 := by
    have hc := pow10_pos (k + 1)
    refine ⟨⌊value m e / 10 ^ (k + 1) + 1 / 2⌋₊, ?_⟩
    have hy : 0 ≤ value m e / 10 ^ (k + 1) := div_nonneg hv0 hc.le
    have f1 := Nat.floor_le (show 0 ≤ value m e / 10 ^ (k + 1) + 1 / 2 by linarith)
    have f2 := Nat.lt_floor_add_one (value m e / 10 ^ (k + 1) + 1 / 2)
    generalize (⌊value m e / 10 ^ (k + 1) + 1 / 2⌋₊ : ℚ) = N at *
    have e1 : value m e = value m e / 10 ^ (k + 1) * 10 ^ (k + 1) := by field_simp
    generalize value m e / 10 ^ (k + 1) = y at *
    rw [e1, ← sub_mul, abs_mul, abs_of_pos hc]
    have : |N - y| ≤ 1 / 2 := abs_le.2 ⟨by linarith, by linarith⟩
    have := mul_le_mul_of_nonneg_right this hc.le
    linarith
  have bound : ∀ c : ℚ, value m e ≤ c * 2 ^ e → 0 ≤ c → c ≤ 2 ^ 53 - 1 → 10 ^ 16 * (10 : ℚ) ^ (k + 1) ≤ (c + 2) * 2 ^ e := by
    intro c hc hc0 hc1
    have hu : (2 : ℚ) ^ (-53 : Int) * 2 ^ 53 = 1 := by norm_num
    have hu0 := pow2_pos (-53)
    have h1 : (D : ℚ) * 10 ^ k * (1 - 2 ^ (-53 : Int)) ≤ (c + 1 / 2) * 2 ^ e := by
      rw [mul_sub, mul_one]
      clear hN hten quarter hc1 hqlow hD
      generalize (2 : ℚ) ^ (-1075 : Int) = t at *
      generalize (2 : ℚ) ^ (-53 : Int) = u at *
      generalize (2 : ℚ) ^ (e - 1) = a at *
      generalize (2 : ℚ) ^ e = b at *
      generalize (D : ℚ) * 10 ^ k = q at *
      linarith
    have h2 : ((D : ℚ) * 10 ^ k) * (2 ^ 53 - 1) ≤ (c + 1 / 2) * 2 ^ e * 2 ^ 53 := by
      generalize (2 : ℚ) ^ (-53 : Int) = u at *
      have := mul_le_mul_of_nonneg_right h1 (show (0 : ℚ) ≤ 2 ^ 53 by norm_num)
      have e1 : (D : ℚ) * 10 ^ k * (1 - u) * 2 ^ 53 = D * 10 ^ k * (2 ^ 53 - 1) := by
        rw [mul_assoc, sub_mul, one_mul, hu]
      linarith
    have h3 : (c + 1 / 2) * 2 ^ e * 2 ^ 53 ≤ (c + 2) * 2 ^ e * (2 ^ 53 - 1) := by nlinarith
    have h4 : (D : ℚ) * 10 ^ k ≤ (c + 2) * 2 ^ e :=
      le_of_mul_le_mul_right (h2.trans h3) (by norm_num)
    rw [hten]
    linarith
  have hr : RoundsTo ((N : ℚ) * 10 ^ (k + 1)) m e := by
    have b1 := bound (2 ^ 53 - 1) (mul_le_mul_of_nonneg_right (by
      have : (m : ℚ) + 1 ≤ 2 ^ 53 := by exact_mod_cast hd.1
      linarith) hp.le) (by norm_num) le_rfl
    refine roundsTo_near hd ?_ ?_
    · linarith
    · intro hm
      have b2 := bound (2 ^ 52) (by unfold value; rw [hm]; push_cast; exact le_rfl) (by norm_num) (by norm_num)
      linarith
  have := h.2.1 _ _ hr
  omega

/-! ### What is read -/

theorem pow_bounds : (2 : Nat) ^ 1076 < 10 ^ 583 := by decide +kernel

theorem tiny_bounds : (10 : ℚ) ^ (-583 : Int) < 2 ^ (-1076 : Int) := by
  have h' := (Nat.cast_lt (α := ℚ)).2 pow_bounds
  rw [Nat.cast_pow, Nat.cast_pow, Nat.cast_ofNat, Nat.cast_ofNat] at h'
  rw [zpow_neg, zpow_neg]
  have h2 : (0 : ℚ) < 2 ^ 1076 := pow_pos (by norm_num) _
  exact inv_strictAnti₀ h2 h'

/-- Decimals of doubles have moderate exponents. -/
theorem shortest_exponent {m : Nat} {e : Int} (hm : m ≠ 0) {D : Nat} {k : Int} (h : Shortest m e D k) : -600 < k := by
  by_contra hc
  have hd := h.1.2.1
  have h10 := pow10_pos k
  have hq0 : (0 : ℚ) ≤ D * 10 ^ k := mul_nonneg (Nat.cast_nonneg _) h10.le
  have err := (abs_le.1 (roundsTo_error' hq0 h.1)).1
  have hv : (2 : ℚ) ^ (-1074 : Int) ≤ value m e := by
    have h1 : (1 : ℚ) ≤ m := by exact_mod_cast Nat.one_le_iff_ne_zero.2 hm
    have h2 := pow2_le hd.2.1
    calc (2 : ℚ) ^ (-1074 : Int) ≤ 2 ^ e := h2
      _ = 1 * 2 ^ e := (one_mul _).symm
      _ ≤ _ := mul_le_mul_of_nonneg_right h1 (pow2_pos e).le
  have hq : (D : ℚ) * 10 ^ k ≤ 10 ^ (-583 : Int) := by
    have h1 : (D : ℚ) ≤ 10 ^ 17 := by exact_mod_cast (shortest_digits h).le
    have h2 : (10 : ℚ) ^ k ≤ 10 ^ (-600 : Int) := zpow_le_zpow_right₀ (by norm_num) (by omega)
    calc (D : ℚ) * 10 ^ k ≤ 10 ^ 17 * 10 ^ (-600 : Int) := mul_le_mul h1 h2 h10.le (by norm_num)
      _ = 10 ^ (-583 : Int) := by
        rw [show (10 : ℚ) ^ 17 = 10 ^ (17 : Int) from (zpow_natCast 10 17).symm, ← zpow_add₀ (by norm_num)]
        norm_num
  have ht := tiny_bounds
  have e1 : (2 : ℚ) ^ (-1074 : Int) = 2 ^ (-1076 : Int) * 4 := by
    rw [show (-1074 : Int) = -1076 + 2 by norm_num, pow2_add]; rfl
  have e2 : (2 : ℚ) ^ (-1075 : Int) = 2 ^ (-1076 : Int) * 2 := by
    rw [show (-1075 : Int) = -1076 + 1 by norm_num, pow2_add]; rfl
  have hu : (2 : ℚ) ^ (-53 : Int) ≤ 1 / 2 := by norm_num
  have hu0 := pow2_pos (-53)
  have ht0 := pow2_pos (-1076)
  rw [e1] at hv
  rw [e2] at err
  generalize (2 : ℚ) ^ (-1076 : Int) = t at *
  generalize (2 : ℚ) ^ (-53 : Int) = u at *
  generalize (10 : ℚ) ^ (-583 : Int) = w at *
  generalize (D : ℚ) * 10 ^ k = q at *
  generalize value m e = v at *
  nlinarith

/-- How the text of a number is read. -/
theorem shown_read {d d' : Double} (hd : IsDouble d.mant d.exp) {s : Str} (hs : Shown d s) (hr : ReadAs s d') :
    d'.neg = d.neg ∧ ∃ (S : Nat) (z : Int) (m0 : Nat) (e0 : Int), S < 2 ^ 64 ∧ -600 < z ∧
      RoundsTo ((S : ℚ) * 10 ^ z) d.mant d.exp ∧ RoundsTo S m0 e0 ∧ Scaled (value m0 e0) z d'.mant d'.exp := by
  obtain ⟨-, hn, i, f, x, hp, hcase⟩ := shown_parts hs
  obtain ⟨i', f', x', hp', hn', k, l, hk, hl, m0, e0, h1, h2⟩ := hr
  obtain ⟨rfl, rfl, rfl⟩ := parts_unique hp hp'
  refine ⟨by rw [hn] at hn'; cases hd' : d'.neg <;> cases hd : d.neg <;> simp_all, ?_⟩
  have hS : numeral 10 (i ++ f) < 2 ^ 64 ∧ -600 < x - f.length ∧
      RoundsTo ((numeral 10 (i ++ f) : ℚ) * 10 ^ (x - f.length : Int)) d.mant d.exp := by
    refine ⟨?_, ?_, ?_⟩
    · rcases hcase with ⟨-, h, -⟩ | ⟨hm, D, k, n, hsh, hD0, -, hDn, ⟨c1, c2, c3, c4⟩ | ⟨c1, c3, c4⟩⟩
      · rw [h]; norm_num
      · rw [c3, Nat.pow_succ]
        have : D * 10 ^ k.toNat < 10 ^ 16 := by
          calc D * 10 ^ k.toNat < 10 ^ n * 10 ^ k.toNat := Nat.mul_lt_mul_of_pos_right hDn (by positivity)
            _ = 10 ^ (n + k.toNat) := (Nat.pow_add _ _ _).symm
            _ ≤ 10 ^ 16 := Nat.pow_le_pow_right (by decide) (by omega)
        rw [← Nat.mul_assoc]
        omega
      · rw [c3]
        have := shortest_digits hsh
        omega
    · rcases hcase with ⟨-, -, h⟩ | ⟨hm, D, k, n, hsh, hD0, -, hDn, ⟨c1, c2, c3, c4⟩ | ⟨c1, c3, c4⟩⟩
      · omega
      · omega
      · rw [c4]
        exact shortest_exponent hm hsh
    · obtain ⟨i', f', x', hp', h⟩ := shown_rounds hd hs
      obtain ⟨rfl, rfl, rfl⟩ := parts_unique hp hp'
      exact h
  obtain ⟨s1, s2, s3⟩ := hS
  have hki : k = i.length := by
    refine longest_unique hk ⟨le_rfl, ?_, fun h => absurd h (lt_irrefl _)⟩
    rw [List.nil_append, List.take_length]
    exact (numeral_le_append i f).trans_lt s1
  subst hki
  rw [List.take_length] at hl h1
  have hlf : l = f.length := by
    refine longest_unique hl ⟨le_rfl, ?_, fun h => absurd h (lt_irrefl _)⟩
    rwa [List.take_length]
  subst hlf
  rw [List.take_length] at h1
  rw [Nat.sub_self, Nat.cast_zero, add_zero] at h2
  exact ⟨_, _, m0, e0, s1, s2, s3, h1, h2⟩

/-! ### How close -/

theorem mul_bounds {s P S T u : ℚ} (hS : 0 ≤ S) (hT : 0 ≤ T) (hu : 0 ≤ u) (hu1 : u ≤ 1 / 100)
    (s1 : S * (1 - u) ≤ s) (s2 : s ≤ S * (1 + u)) (p1 : T * (1 - u) ≤ P) (p2 : P ≤ T * (1 + u)) :
    S * T * (1 - 2 * u) ≤ s * P ∧ s * P ≤ S * T * (1 + 3 * u) := by
  have h1 : 0 ≤ 1 - u := by linarith
  have hs : 0 ≤ s := (mul_nonneg hS h1).trans s1
  have hP : 0 ≤ P := (mul_nonneg hT h1).trans p1
  have a := mul_le_mul s1 p1 (mul_nonneg hT h1) hs
  have b := mul_le_mul s2 p2 hP (mul_nonneg hS (by linarith))
  have hST := mul_nonneg hS hT
  constructor
  · nlinarith [mul_nonneg hST (mul_nonneg hu hu)]
  · nlinarith [mul_nonneg hST (mul_nonneg hu (show 0 ≤ 1 - u from h1))]

theorem div_bounds {s P S T u : ℚ} (hS : 0 ≤ S) (hT : 0 < T) (hu : 0 ≤ u) (hu1 : u ≤ 1 / 100)
    (s1 : S * (1 - u) ≤ s) (s2 : s ≤ S * (1 + u)) (p1 : T * (1 - u) ≤ P) (p2 : P ≤ T * (1 + u)) :
    S / T * (1 - 2 * u) ≤ s / P ∧ s / P ≤ S / T * (1 + 3 * u) := by
  have h1 : 0 < 1 - u := by linarith
  have hP : 0 < P := (mul_pos hT h1).trans_le p1
  have e1 : S / T * (1 - 2 * u) = S * (1 - 2 * u) / T := by ring
  have e2 : S / T * (1 + 3 * u) = S * (1 + 3 * u) / T := by ring
  have hST := mul_nonneg hS hT.le
  rw [e1, e2, div_le_div_iff₀ hT hP, div_le_div_iff₀ hP hT]
  constructor
  · have a := mul_le_mul_of_nonneg_left p2 (show 0 ≤ S * (1 - 2 * u) from mul_nonneg hS (by linarith))
    have b := mul_le_mul_of_nonneg_right s1 hT.le
    nlinarith [mul_nonneg hST (mul_nonneg hu hu)]
  · have a := mul_le_mul_of_nonneg_left p1 (show 0 ≤ S * (1 + 3 * u) from mul_nonneg hS (by linarith))
    have b := mul_le_mul_of_nonneg_right s2 hT.le
    nlinarith [mul_nonneg hST (mul_nonneg hu (show 0 ≤ 1 - 3 * u by linarith))]

/-- The text of a number is read as a number close to it. -/
theorem shown_close {d d' : Double} (hd : IsDouble d.mant d.exp) {s : Str} (hs : Shown d s) (hr : ReadAs s d') :
    |value d'.mant d'.exp - value d.mant d.exp| ≤ value d.mant d.exp * 2 ^ (-49 : Int) + 2 ^ (-1072 : Int) := by
  obtain ⟨-, S, z, m0, e0, h64, hz, hv, hm0, hsc⟩ := shown_read hd hs hr
  have hS : (0 : ℚ) ≤ S := Nat.cast_nonneg _
  have hq0 : (0 : ℚ) ≤ S * 10 ^ z := mul_nonneg hS (pow10_pos z).le
  have err := abs_le.1 (roundsTo_error' hq0 hv)
  have hu0 := pow2_pos (-53)
  have hu1 : (2 : ℚ) ^ (-53 : Int) ≤ 1 / 100 := by norm_num
  have hu2 : (0 : ℚ) ≤ 1 - 2 * 2 ^ (-53 : Int) := by norm_num
  have e49 : (2 : ℚ) ^ (-49 : Int) = 16 * 2 ^ (-53 : Int) := by norm_num
  have e1072 : (2 : ℚ) ^ (-1072 : Int) = 8 * 2 ^ (-1075 : Int) := by
    rw [show (-1072 : Int) = -1075 + 3 by norm_num, pow2_add, mul_comm]; rfl
  have ht0 := pow2_pos (-1075)
  have nat : ∀ {n m : Nat} {e : Int}, RoundsTo n m e →
      (n : ℚ) * (1 - 2 ^ (-53 : Int)) ≤ value m e ∧ value m e ≤ n * (1 + 2 ^ (-53 : Int)) := by
    intro n m e h
    obtain ⟨a, b⟩ := nat_error h
    have e : (2 : ℚ) ^ (-53 : Int) * 2 ^ 53 = 1 := by norm_num
    generalize (2 : ℚ) ^ (-53 : Int) = u at *
    constructor <;> nlinarith
  obtain ⟨s1, s2⟩ := nat hm0
  have hs0 := value_nonneg m0 e0
  have hvn := value_nonneg d.mant d.exp
  rw [e49, e1072]
  -- it is enough to be close to the decimal
  suffices h : S * 10 ^ z * (1 - 8 * 2 ^ (-53 : Int)) - 3 * 2 ^ (-1075 : Int) ≤ value d'.mant d'.exp ∧
      value d'.mant d'.exp ≤ S * 10 ^ z * (1 + 10 * 2 ^ (-53 : Int)) + 3 * 2 ^ (-1075 : Int) by
    obtain ⟨h1, h2⟩ := h
    obtain ⟨r1, r2⟩ := err
    generalize (2 : ℚ) ^ (-53 : Int) = u at *
    generalize (2 : ℚ) ^ (-1075 : Int) = t at *
    generalize value d'.mant d'.exp = r at *
    generalize value d.mant d.exp = v at *
    generalize (S : ℚ) * 10 ^ z = q at *
    clear nat
    have hqv : q * (1 - u) ≤ v + t := by linarith
    have hq2 : q ≤ 101 / 99 * (v + t) := by nlinarith
    have hqu : q * u ≤ 101 / 99 * (v + t) * u := mul_le_mul_of_nonneg_right hq2 hu0.le
    have htu : t * u ≤ t * (1 / 100) := mul_le_mul_of_nonneg_left hu1 ht0.le
    have hvu : 0 ≤ v * u := mul_nonneg hvn hu0.le
    rw [abs_le]
    constructor <;> nlinarith
  have step : ∀ {x : ℚ} {m : Nat} {e : Int}, 0 ≤ x → RoundsTo x m e →
      x * (1 - 2 ^ (-53 : Int)) - 2 ^ (-1075 : Int) ≤ value m e ∧
      value m e ≤ x * (1 + 2 ^ (-53 : Int)) + 2 ^ (-1075 : Int) := by
    intro x m e hx h
    have := abs_le.1 (roundsTo_error' hx h)
    generalize (2 : ℚ) ^ (-53 : Int) = u at *
    generalize (2 : ℚ) ^ (-1075 : Int) = t at *
    constructor <;> linarith
  have close : ∀ {x q : ℚ} {m : Nat} {e : Int}, 0 ≤ q → q * (1 - 2 * 2 ^ (-53 : Int)) ≤ x →
      x ≤ q * (1 + 3 * 2 ^ (-53 : Int)) → RoundsTo x m e →
      q * (1 - 3 * 2 ^ (-53 : Int)) - 2 ^ (-1075 : Int) ≤ value m e ∧
      value m e ≤ q * (1 + 5 * 2 ^ (-53 : Int)) + 2 ^ (-1075 : Int) := by
    intro x q m e hq x1 x2 h
    have hx : 0 ≤ x := by
      exact le_trans (mul_nonneg hq hu2) x1
    obtain ⟨a, b⟩ := step hx h
    clear nat step
    generalize (2 : ℚ) ^ (-53 : Int) = u at *
    generalize (2 : ℚ) ^ (-1075 : Int) = t at *
    have c1 := mul_le_mul_of_nonneg_right x1 (show 0 ≤ 1 - u by linarith)
    have c2 := mul_le_mul_of_nonneg_right x2 (show 0 ≤ 1 + u by linarith)
    have c3 := mul_nonneg hq (mul_nonneg hu0.le hu0.le)
    have c4 := mul_nonneg hq (mul_nonneg hu0.le (show 0 ≤ 1 - 3 * u by linarith))
    constructor <;> nlinarith
  generalize hx : value m0 e0 = x at *
  generalize d'.mant = M at *
  generalize d'.exp = E at *
  cases hsc with
  | up _ k p pe _ _ hk hp h =>
    obtain ⟨p1, p2⟩ := nat (n := 10 ^ k) (by push_cast; exact hp)
    push_cast at p1 p2
    rw [zpow_natCast] at *
    obtain ⟨x1, x2⟩ := mul_bounds hS (by positivity) hu0.le hu1 s1 s2 p1 p2
    obtain ⟨r1, r2⟩ := close hq0 x1 x2 h
    clear nat step close
    generalize (2 : ℚ) ^ (-53 : Int) = u at *
    generalize (2 : ℚ) ^ (-1075 : Int) = t at *
    have := mul_nonneg hq0 hu0.le
    constructor <;> linarith
  | zero k hk =>
    have hS0 : (S : ℚ) = 0 := by
      generalize (2 : ℚ) ^ (-53 : Int) = u at *
      clear nat step close
      nlinarith
    rw [hS0, value, Nat.cast_zero, zero_mul, zero_mul, zero_mul, zero_mul]
    generalize (2 : ℚ) ^ (-1075 : Int) = t at *
    constructor <;> linarith
  | down _ k p pe _ _ h0 hk hp h =>
    obtain ⟨p1, p2⟩ := nat (n := 10 ^ k) (by push_cast; exact hp)
    push_cast at p1 p2
    have eq : (S : ℚ) * 10 ^ (-(k : Int)) = S / 10 ^ k := by rw [zpow_neg, zpow_natCast, ← div_eq_mul_inv]
    rw [eq] at hq0 ⊢
    obtain ⟨x1, x2⟩ := div_bounds hS (by positivity) hu0.le hu1 s1 s2 p1 p2
    obtain ⟨r1, r2⟩ := close hq0 x1 x2 h
    clear nat step close
    generalize (2 : ℚ) ^ (-53 : Int) = u at *
    generalize (2 : ℚ) ^ (-1075 : Int) = t at *
    have := mul_nonneg hq0 hu0.le
    constructor <;> linarith
  | far _ k p pe m1 e1 _ _ hk hp h1 h2 =>
    obtain ⟨p1, p2⟩ := nat (n := 10 ^ 308) (by rw [Nat.cast_pow, Nat.cast_ofNat]; exact hp)
    rw [Nat.cast_pow, Nat.cast_ofNat] at p1 p2
    have hT : (0 : ℚ) < 10 ^ 308 := pow_pos (by norm_num) _
    obtain ⟨x1, x2⟩ := div_bounds hS hT hu0.le hu1 s1 s2 p1 p2
    have hq1 : (0 : ℚ) ≤ S / 10 ^ 308 := div_nonneg hS hT.le
    obtain ⟨t1, t2⟩ := close hq1 x1 x2 h1
    have ht := value_nonneg m1 e1
    generalize hK : -((k : Int) - 308) = K at h2
    generalize value m1 e1 = w at *
    cases h2 with
    | up _ k' _ _ _ _ _ _ _ => omega
    | zero k' _ => omega
    | far _ k' _ _ _ _ _ _ _ _ _ _ => omega
    | down _ k' p' pe' _ _ h0 hk' hp' h =>
      obtain ⟨p1', p2'⟩ := nat (n := 10 ^ k') (by push_cast; exact hp')
      push_cast at p1' p2'
      have hP := pow_value h0 (by push_cast; exact hp')
      have hT' : (0 : ℚ) < 10 ^ k' := by positivity
      have hq2 : (S : ℚ) / 10 ^ 308 = S * 10 ^ (-(k : Int)) * 10 ^ k' := by
        rw [show -(k : Int) = -(308 : Nat) + -(k' : Int) by omega, zpow_add₀ (by norm_num), zpow_neg, zpow_neg,
          zpow_natCast, zpow_natCast, div_eq_mul_inv, mul_assoc, mul_assoc, inv_mul_cancel₀ hT'.ne', mul_one]
      rw [hq2] at t1 t2
      have hr := step (div_nonneg ht (value_nonneg p' pe')) h
      clear nat step close hq2 x1 x2 p1 p2 hp hp' h1 h hT hq1 hx s1 s2 hm0
      generalize (2 : ℚ) ^ (-53 : Int) = u at *
      generalize (2 : ℚ) ^ (-1075 : Int) = t at *
      generalize (S : ℚ) * 10 ^ (-(k : Int)) = q at *
      generalize (10 : ℚ) ^ k' = T at *
      generalize value p' pe' = P at *
      generalize value M E = r at *
      have hP1 := hP.1
      have hP0 : 0 < P := by linarith
      have hqu := mul_nonneg hq0 hu0.le
      have hquu := mul_nonneg hqu hu0.le
      have b1 : q * (1 - 4 * u) - t ≤ w / P := by
        rw [le_div_iff₀ hP0]
        have c1 := mul_le_mul_of_nonneg_left p2' (show 0 ≤ q * (1 - 4 * u) from mul_nonneg hq0 (by linarith))
        have c2 := mul_le_mul_of_nonneg_left hP1 ht0.le
        have c3 := mul_nonneg (mul_nonneg hquu hT'.le) (show (0 : ℚ) ≤ 4 by norm_num)
        nlinarith
      have b2 : w / P ≤ q * (1 + 7 * u) + t := by
        rw [div_le_iff₀ hP0]
        have c1 := mul_le_mul_of_nonneg_left p1' (show 0 ≤ q * (1 + 7 * u) from mul_nonneg hq0 (by linarith))
        have c2 := mul_le_mul_of_nonneg_left hP1 ht0.le
        have c3 := mul_nonneg (mul_nonneg hqu hT'.le) (show (0 : ℚ) ≤ 1 - 7 * u by linarith)
        nlinarith
      have htu : t * u ≤ t * (1 / 100) := mul_le_mul_of_nonneg_left hu1 ht0.le
      have htu0 := mul_nonneg ht0.le hu0.le
      have d1 := mul_le_mul_of_nonneg_right b1 (show 0 ≤ 1 - u by linarith)
      have d2 := mul_le_mul_of_nonneg_right b2 (show 0 ≤ 1 + u by linarith)
      have d3 := mul_nonneg hqu (show 0 ≤ 1 - 7 * u by linarith)
      constructor
      · nlinarith [hr.1]
      · nlinarith [hr.2]

end Json
end Oid4vci
