import Verif.Spec.Double
import Mathlib.Algebra.Order.Field.Basic
import Mathlib.Algebra.Order.Field.Rat
import Mathlib.Data.Nat.Log
import Mathlib.Tactic.Linarith
import Mathlib.Tactic.Positivity
import Mathlib.Tactic.Ring
import Mathlib.Tactic.FieldSimp

/-! Rounding to double precision: the computation and its specification. -/

namespace Oid4vci
namespace Json

open Spec

/-! ### Powers -/

theorem pow2_pos (e : Int) : (0 : ℚ) < 2 ^ e := zpow_pos (by norm_num) _

theorem pow10_pos (e : Int) : (0 : ℚ) < 10 ^ e := zpow_pos (by norm_num) _

theorem zpow_split (b : ℚ) (e : Int) : b ^ e = b ^ e.toNat / b ^ (-e).toNat := by
  rcases Int.le_total 0 e with h | h
  · obtain ⟨n, rfl⟩ := Int.eq_ofNat_of_zero_le h
    have : (-(n : Int)).toNat = 0 := by omega
    simp [this]
  · obtain ⟨n, hn⟩ := Int.eq_ofNat_of_zero_le (show 0 ≤ -e by omega)
    obtain rfl : e = -(n : Int) := by omega
    have : (-(n : Int)).toNat = 0 := by omega
    rw [this, zpow_neg, zpow_natCast]
    simp

theorem pow2_add (a b : Int) : (2 : ℚ) ^ (a + b) = 2 ^ a * 2 ^ b := zpow_add₀ (by norm_num) a b

theorem pow2_le {a b : Int} (h : a ≤ b) : (2 : ℚ) ^ a ≤ 2 ^ b := zpow_le_zpow_right₀ (by norm_num) h

theorem pow2_lt {a b : Int} (h : a < b) : (2 : ℚ) ^ a < 2 ^ b := zpow_lt_zpow_right₀ (by norm_num) h

theorem value_nonneg (m : Nat) (e : Int) : 0 ≤ value m e :=
  mul_nonneg (Nat.cast_nonneg _) (pow2_pos e).le

/-! ### Rounding a quotient to an integer -/

/-- `Q` is the integer nearest to `x`, ties to even. -/
def RoundInt (x : ℚ) (Q : Nat) : Prop := |x - Q| ≤ 1 / 2 ∧ (|x - Q| = 1 / 2 → 2 ∣ Q)

theorem roundInt_div (a b : Nat) (hb : 0 < b) :
    RoundInt ((a : ℚ) / b) (if 2 * (a % b) < b ∨ (2 * (a % b) = b ∧ a / b % 2 = 0) then a / b else a / b + 1) := by
  have hd := Nat.div_add_mod a b
  have hm := Nat.mod_lt a hb
  have hb' : (0 : ℚ) < b := by exact_mod_cast hb
  generalize a / b = q at *
  generalize a % b = r at *
  have hx : (a : ℚ) / b = q + r / b := by
    rw [← hd]; push_cast; field_simp
  have hr0 : (0 : ℚ) ≤ (r : ℚ) / b := by positivity
  have hr1 : (r : ℚ) / b < 1 := by rw [div_lt_one hb']; exact_mod_cast hm
  rw [hx]
  split
  · rename_i hc
    have e : (q : ℚ) + r / b - q = r / b := by ring
    unfold RoundInt
    rw [e, abs_of_nonneg hr0]
    rcases hc with hc | ⟨hc, he⟩
    · have : (r : ℚ) / b < 1 / 2 := by
        rw [div_lt_div_iff₀ hb' (by norm_num)]; exact_mod_cast (by omega : r * 2 < 1 * b)
      exact ⟨this.le, fun h => absurd h this.ne⟩
    · refine ⟨?_, fun _ => Nat.dvd_of_mod_eq_zero he⟩
      rw [div_le_div_iff₀ hb' (by norm_num)]; exact_mod_cast (by omega : r * 2 ≤ 1 * b)
  · rename_i hc
    push Not at hc
    have e : (q : ℚ) + r / b - ((q + 1 : Nat) : ℚ) = -(1 - r / b) := by push_cast; ring
    unfold RoundInt
    rw [e, abs_neg, abs_of_nonneg (by linarith)]
    have h2 : (1 : ℚ) / 2 ≤ r / b := by
      rw [div_le_div_iff₀ (by norm_num) hb']; exact_mod_cast (by omega : 1 * b ≤ r * 2)
    refine ⟨by linarith, fun h => ?_⟩
    have h3 : (r : ℚ) / b = 1 / 2 := by linarith
    rw [div_eq_div_iff hb'.ne' (by norm_num)] at h3
    have h4 : r * 2 = 1 * b := by exact_mod_cast h3
    have := hc.2 (by omega)
    omega

/-! ### The nearest double -/

/-- Canonical significand and exponent, without the upper bound of the exponent. -/
def Canonical (m : Nat) (e : Int) : Prop := m < 2 ^ 53 ∧ -1074 ≤ e ∧ (2 ^ 52 ≤ m ∨ e = -1074)

theorem isDouble_iff {m : Nat} {e : Int} : IsDouble m e ↔ Canonical m e ∧ e ≤ 971 := by
  unfold IsDouble Canonical; tauto

/-- `Q * 2^e` is `q` rounded at the binary digit that double precision keeps. -/
structure Approx (q : ℚ) (e : Int) (Q : Nat) : Prop where
  low : -1074 ≤ e
  lt : q < 2 ^ (e + 53)
  ge : e = -1074 ∨ 2 ^ (e + 52) ≤ q
  round : RoundInt (q / 2 ^ e) Q

theorem log2_bounds {n : Nat} (h : n ≠ 0) : (2 : ℚ) ^ (n.log2 : Int) ≤ n ∧ (n : ℚ) < 2 ^ ((n.log2 : Int) + 1) := by
  constructor
  · rw [zpow_natCast]; exact_mod_cast Nat.log2_self_le h
  · have : ((n.log2 : Int) + 1) = ((n.log2 + 1 : Nat) : Int) := by push_cast; rfl
    rw [this, zpow_natCast]; exact_mod_cast Nat.lt_log2_self

theorem nearest_approx (num den : Nat) (hd : 0 < den) : ∃ e Q, Approx ((num : ℚ) / den) e Q ∧
    nearest num den = if Q = 2 ^ 53 then (2 ^ 52, e + 1) else (Q, e) := by
  by_cases hn : num = 0
  · subst hn
    refine ⟨-1074, 0, ⟨le_rfl, ?_, .inl rfl, ?_⟩, by simp [nearest]⟩
    · simp only [Nat.cast_zero, zero_div]; exact pow2_pos _
    · simp [RoundInt]
  have hden : (0 : ℚ) < den := by exact_mod_cast hd
  unfold nearest
  rw [if_neg hn]
  simp only
  obtain ⟨n1, n2⟩ := log2_bounds hn
  obtain ⟨d1, d2⟩ := log2_bounds (show den ≠ 0 by omega)
  generalize hs : (num.log2 : Int) - den.log2 = s
  have hq : (0 : ℚ) ≤ (num : ℚ) / den := by positivity
  have hlo : (2 : ℚ) ^ (s - 1) ≤ num / den := by
    rw [le_div_iff₀ hden]
    have h1 : (2 : ℚ) ^ (s - 1) * den ≤ 2 ^ (s - 1) * 2 ^ ((den.log2 : Int) + 1) :=
      mul_le_mul_of_nonneg_left d2.le (pow2_pos _).le
    rw [← pow2_add, show s - 1 + ((den.log2 : Int) + 1) = num.log2 by omega] at h1
    exact h1.trans n1
  have hhi : (num : ℚ) / den < 2 ^ (s + 1) := by
    rw [div_lt_iff₀ hden]
    have h1 : (2 : ℚ) ^ (s + 1) * 2 ^ (den.log2 : Int) ≤ 2 ^ (s + 1) * den :=
      mul_le_mul_of_nonneg_left d1 (pow2_pos _).le
    rw [← pow2_add, show s + 1 + (den.log2 : Int) = num.log2 + 1 by omega] at h1
    exact n2.trans_le h1
  have htest : num * 2 ^ (-s).toNat < den * 2 ^ s.toNat ↔ (num : ℚ) / den < 2 ^ s := by
    rw [zpow_split 2 s, div_lt_div_iff₀ hden (by positivity), mul_comm ((2 : ℚ) ^ s.toNat)]
    exact_mod_cast Iff.rfl
  have he0 : ∃ e0, (if num * 2 ^ (-s).toNat < den * 2 ^ s.toNat then s - 53 else s - 52) = e0 ∧
      (2 : ℚ) ^ (e0 + 52) ≤ num / den ∧ (num : ℚ) / den < 2 ^ (e0 + 53) := by
    refine ⟨_, rfl, ?_⟩
    split
    · rename_i h
      rw [htest] at h
      rw [show s - 53 + 52 = s - 1 by omega, show s - 53 + 53 = s by omega]
      exact ⟨hlo, h⟩
    · rename_i h
      rw [htest] at h
      rw [show s - 52 + 52 = s by omega, show s - 52 + 53 = s + 1 by omega]
      exact ⟨not_lt.1 h, hhi⟩
  obtain ⟨e0, he, h1, h2⟩ := he0
  rw [he]
  generalize hm : max (-1074) e0 = e
  have hab : ((num * 2 ^ (-e).toNat : Nat) : ℚ) / ((den * 2 ^ e.toNat : Nat) : ℚ) = num / den / 2 ^ e := by
    rw [zpow_split 2 e]
    push_cast
    field_simp
  refine ⟨e, _, ⟨by omega, ?_, ?_, ?_⟩, rfl⟩
  · exact h2.trans_le (pow2_le (by omega))
  · rcases le_total e0 (-1074) with h | h
    · left; omega
    · right
      have : e = e0 := by omega
      rw [this]; exact h1
  · rw [← hab]
    exact roundInt_div _ _ (by positivity)

theorem approx_le {q : ℚ} {e : Int} {Q : Nat} (h : Approx q e Q) : Q ≤ 2 ^ 53 := by
  obtain ⟨-, h1, -, h2, -⟩ := h
  rw [add_comm, pow2_add] at h1
  have h3 : q / 2 ^ e < 2 ^ 53 := by rw [div_lt_iff₀ (pow2_pos e)]; exact_mod_cast h1
  have h4 := (abs_le.1 h2).1
  have h5 : (Q : ℚ) < (2 ^ 53 + 1 : Nat) := by push_cast; linarith
  have h6 : Q < 2 ^ 53 + 1 := by exact_mod_cast h5
  omega

theorem approx_ge {q : ℚ} {e : Int} {Q : Nat} (h : Approx q e Q) : 2 ^ 52 ≤ Q ∨ e = -1074 := by
  obtain ⟨-, -, h1, h2, -⟩ := h
  rcases h1 with h1 | h1
  · exact .inr h1
  · left
    rw [add_comm, pow2_add] at h1
    have h3 : (2 : ℚ) ^ 52 ≤ q / 2 ^ e := by rw [le_div_iff₀ (pow2_pos e)]; exact_mod_cast h1
    have h4 := (abs_le.1 h2).2
    have h5 : ((2 ^ 52 : Nat) : ℚ) < (Q + 1 : Nat) := by push_cast; linarith
    have h6 : 2 ^ 52 < Q + 1 := by exact_mod_cast h5
    omega

/-- The canonical form of `Q * 2^e`. -/
def canon (Q : Nat) (e : Int) : Nat × Int := if Q = 2 ^ 53 then (2 ^ 52, e + 1) else (Q, e)

theorem canonical_canon {q : ℚ} {e : Int} {Q : Nat} (h : Approx q e Q) : Canonical (canon Q e).1 (canon Q e).2 := by
  have h1 := approx_le h
  have h2 := approx_ge h
  have h3 := h.low
  unfold canon
  split
  · refine ⟨by norm_num, by simp only; omega, .inl le_rfl⟩
  · exact ⟨by simp only; omega, h3, h2⟩

theorem value_canon (Q : Nat) (e : Int) : value (canon Q e).1 (canon Q e).2 = value Q e := by
  unfold canon
  split
  · subst_vars
    simp only [value]
    rw [pow2_add]
    push_cast
    ring
  · rfl

theorem value_inj {m m' : Nat} {e e' : Int} (h : Canonical m e) (h' : Canonical m' e')
    (hv : value m e = value m' e') : m = m' ∧ e = e' := by
  have key : ∀ {m m' : Nat} {e e' : Int}, Canonical m e → Canonical m' e' → value m e = value m' e' → ¬ e < e' := by
    intro m m' e e' h h' hv hlt
    obtain ⟨n, hn⟩ := Int.eq_ofNat_of_zero_le (show 0 ≤ e' - e - 1 by omega)
    obtain rfl : e' = e + 1 + n := by omega
    unfold value at hv
    rw [pow2_add, pow2_add, zpow_natCast] at hv
    have h1 : (m : ℚ) = m' * 2 * 2 ^ n := by
      have := pow2_pos e
      have h2 : (m : ℚ) * 2 ^ e = (m' * 2 * 2 ^ n) * 2 ^ e := by rw [hv]; ring
      exact mul_right_cancel₀ this.ne' h2
    have h2 : m = m' * 2 * 2 ^ n := by exact_mod_cast h1
    have h3 := h.1
    have h4 := h.2.1
    have h5 := h'.2.2
    have h6 : m' * 2 * 1 ≤ m' * 2 * 2 ^ n := Nat.mul_le_mul_left _ Nat.one_le_two_pow
    omega
  have h1 := key h h' hv
  have h2 := key h' h hv.symm
  obtain rfl : e = e' := by omega
  refine ⟨?_, rfl⟩
  have := mul_right_cancel₀ (pow2_pos e).ne' hv
  exact_mod_cast this

/-- A multiple of the last place is not closer, and as close only across an even significand. -/
theorem round_multiple {x : ℚ} {Q N : Nat} (h : RoundInt x Q) :
    |x - Q| ≤ |x - N| ∧ (|x - Q| = |x - N| → N ≠ Q → 2 ∣ Q ∧ ¬ 2 ∣ N) := by
  obtain ⟨h1, h2⟩ := h
  by_cases hN : N = Q
  · subst hN; exact ⟨le_rfl, fun _ h => absurd rfl h⟩
  have hge : (1 : ℚ) ≤ |(Q : ℚ) - N| := by
    rcases Nat.lt_or_gt_of_ne hN with h | h
    · have : (N : ℚ) + 1 ≤ Q := by exact_mod_cast h
      rw [abs_of_nonneg (by linarith)]; linarith
    · have : (Q : ℚ) + 1 ≤ N := by exact_mod_cast h
      rw [abs_of_nonpos (by linarith)]; linarith
  have htri : |(Q : ℚ) - N| ≤ |x - Q| + |x - N| := by
    have := abs_sub_abs_le_abs_sub (0 : ℚ) 0
    calc |(Q : ℚ) - N| = |(x - N) - (x - Q)| := by ring_nf
      _ ≤ |x - N| + |x - Q| := abs_sub _ _
      _ = _ := by ring
  refine ⟨by linarith, fun he _ => ?_⟩
  have hhalf : |x - Q| = 1 / 2 := by linarith
  have hQ := h2 hhalf
  refine ⟨hQ, fun hN2 => ?_⟩
  have h2' : (2 : ℚ) ≤ |(Q : ℚ) - N| := by
    rcases Nat.lt_or_gt_of_ne hN with h | h
    · have : N + 2 ≤ Q := by omega
      have : (N : ℚ) + 2 ≤ Q := by exact_mod_cast this
      rw [abs_of_nonneg (by linarith)]; linarith
    · have : Q + 2 ≤ N := by omega
      have : (Q : ℚ) + 2 ≤ N := by exact_mod_cast this
      rw [abs_of_nonpos (by linarith)]; linarith
  linarith

theorem approx_best {q : ℚ} {e : Int} {Q : Nat} (h : Approx q e Q) {m' : Nat} {e' : Int}
    (h' : Canonical m' e') :
    |q - value Q e| ≤ |q - value m' e'| ∧
    (|q - value Q e| = |q - value m' e'| → value m' e' ≠ value Q e → 2 ∣ Q ∧ ¬ 2 ∣ m') := by
  have hp := pow2_pos e
  have scale : ∀ N : Nat, |q - value N e| = |q / 2 ^ e - N| * 2 ^ e := by
    intro N
    rw [← abs_of_pos hp, ← abs_mul, abs_of_pos hp]
    congr 1
    unfold value
    field_simp
  by_cases hee : e ≤ e'
  · obtain ⟨n, hn⟩ := Int.eq_ofNat_of_zero_le (show 0 ≤ e' - e by omega)
    obtain rfl : e' = e + n := by omega
    have hv : value m' (e + n) = value (m' * 2 ^ n) e := by
      unfold value
      rw [pow2_add, zpow_natCast]
      push_cast
      ring
    obtain ⟨r1, r2⟩ := round_multiple h.round (N := m' * 2 ^ n)
    rw [hv, scale, scale]
    refine ⟨mul_le_mul_of_nonneg_right r1 hp.le, fun heq hne => ?_⟩
    have := r2 (mul_right_cancel₀ hp.ne' heq) (by rintro h0; exact hne (by rw [h0]))
    exact ⟨this.1, fun hm => this.2 (Dvd.dvd.mul_right hm _)⟩
  · have hlt : e' < e := by omega
    have hge : (2 : ℚ) ^ (e + 52) ≤ q := by
      rcases h.ge with h0 | h0
      · have := h'.2.1; omega
      · exact h0
    have hv : value m' e' < 2 ^ (e + 52) := by
      unfold value
      have h1 : (m' : ℚ) < 2 ^ 53 := by exact_mod_cast h'.1
      have h2 : (m' : ℚ) * 2 ^ e' < 2 ^ 53 * 2 ^ e' := mul_lt_mul_of_pos_right h1 (pow2_pos _)
      have h3 : (2 : ℚ) ^ 53 * 2 ^ e' = 2 ^ (53 + e') := by rw [pow2_add]; norm_cast
      rw [h3] at h2
      exact h2.trans_le (pow2_le (by omega))
    have h52 : value (2 ^ 52) e = 2 ^ (e + 52) := by
      unfold value; rw [add_comm, pow2_add]; norm_cast
    have r1 := (round_multiple h.round (N := 2 ^ 52)).1
    have r2 := mul_le_mul_of_nonneg_right r1 hp.le
    rw [← scale, ← scale, h52, abs_of_nonneg (by linarith : 0 ≤ q - 2 ^ (e + 52))] at r2
    rw [abs_of_nonneg (by linarith : 0 ≤ q - value m' e')]
    refine ⟨by linarith, fun heq => ?_⟩
    linarith

set_option exponentiation.threshold 1100 in
theorem tooLarge_eq : (tooLarge : ℚ) = (2 ^ 53 - 1 / 2) * 2 ^ (971 : Int) := by
  have e : (2 : ℚ) ^ (971 : Int) = 2 * 2 ^ (970 : Nat) := by
    rw [show (971 : Int) = 1 + ((970 : Nat) : Int) by norm_num, pow2_add, zpow_natCast]; norm_num
  rw [e]
  unfold tooLarge
  rw [Nat.cast_mul, Nat.cast_pow]
  have h : ((2 ^ 54 - 1 : Nat) : ℚ) = 2 ^ 54 - 1 := by norm_num
  rw [h, show ((2 : Nat) : ℚ) = 2 by norm_num]
  generalize (2 : ℚ) ^ 970 = P
  ring

theorem canon_bounded {q : ℚ} {e : Int} {Q : Nat} (h : Approx q e Q) : (canon Q e).2 ≤ 971 ↔ q < tooLarge := by
  have hQ := approx_le h
  have hp := pow2_pos 971
  have hsmall : e ≤ 970 → q < tooLarge := by
    intro he
    refine h.lt.trans_le ?_
    refine (pow2_le (show e + 53 ≤ 52 + 971 by omega)).trans ?_
    rw [pow2_add, tooLarge_eq]
    generalize (2 : ℚ) ^ (971 : Int) = P at *
    refine mul_le_mul_of_nonneg_right ?_ hp.le
    norm_num
  constructor
  · intro hc
    by_cases he : e ≤ 970
    · exact hsmall he
    have hne : Q ≠ 2 ^ 53 := by
      rintro rfl
      simp only [canon, if_true] at hc
      omega
    simp only [canon, hne, if_false] at hc
    obtain rfl : e = 971 := by omega
    rw [tooLarge_eq, ← div_lt_iff₀ hp]
    obtain ⟨r1, r2⟩ := h.round
    have hQ1 : (Q : ℚ) + 1 ≤ 2 ^ 53 := by exact_mod_cast (show Q + 1 ≤ 2 ^ 53 by omega)
    have h1 := (abs_le.1 r1).2
    by_contra hcon
    have hQe : (Q : ℚ) + 1 = 2 ^ 53 := by linarith
    have hQe' : Q + 1 = 2 ^ 53 := by exact_mod_cast hQe
    have := r2 (by rw [abs_of_nonneg (by linarith)]; linarith)
    omega
  · intro hq
    have he : e ≤ 971 := by
      by_contra he
      rcases h.ge with h0 | h0
      · omega
      · have h1 := pow2_le (show 53 + 971 ≤ e + 52 by omega)
        rw [pow2_add] at h1
        rw [tooLarge_eq] at hq
        generalize (2 : ℚ) ^ (971 : Int) = P at *
        have : ((2 : ℚ) ^ 53 - 1 / 2) * P ≤ 2 ^ (53 : Int) * P :=
          mul_le_mul_of_nonneg_right (by norm_num) hp.le
        linarith
    unfold canon
    split
    · rename_i hQ53
      simp only
      by_contra hcon
      obtain rfl : e = 971 := by omega
      rw [tooLarge_eq, ← div_lt_iff₀ hp] at hq
      have h1 := (abs_le.1 h.round.1).1
      have h2 : (Q : ℚ) = 2 ^ 53 := by rw [hQ53]; norm_num
      linarith
    · exact he

theorem roundsTo_iff {num den : Nat} (hd : 0 < den) {m : Nat} {e : Int} :
    RoundsTo ((num : ℚ) / den) m e ↔ nearest num den = (m, e) ∧ e ≤ 971 := by
  obtain ⟨e0, Q, h, hn⟩ := nearest_approx num den hd
  change nearest num den = canon Q e0 at hn
  have hb := canon_bounded h
  have hc := canonical_canon h
  have hv := value_canon Q e0
  rw [hn]
  generalize hME : canon Q e0 = ME at *
  obtain ⟨M, E⟩ := ME
  simp only at hb hc hv
  generalize (num : ℚ) / den = q at *
  have hME' : ¬ 2 ∣ Q → ¬ 2 ∣ M := by
    unfold canon at hME
    split at hME
    · rename_i hQ; intro h2; exact absurd (hQ ▸ ⟨2 ^ 52, by norm_num⟩) h2
    · cases hME; exact id
  have hQM : 2 ∣ Q → 2 ∣ M := by
    unfold canon at hME
    split at hME
    · cases hME; intro _; exact ⟨2 ^ 51, by norm_num⟩
    · cases hME; exact id
  constructor
  · rintro ⟨h1, h2, h3⟩
    have hE : E ≤ 971 := hb.2 h1
    obtain ⟨a1, a2⟩ := h3 M E (isDouble_iff.2 ⟨hc, hE⟩)
    obtain ⟨b1, b2⟩ := approx_best h (isDouble_iff.1 h2).1
    rw [← hv] at b1 b2
    have heq : |q - value m e| = |q - value M E| := le_antisymm a1 b1
    refine ⟨?_, h2.2.2.1⟩
    by_contra hne
    have h4 := a2 heq hne
    have h5 := b2 heq.symm fun hval => hne (by
      obtain ⟨rfl, rfl⟩ := value_inj (isDouble_iff.1 h2).1 hc hval
      rfl)
    exact h5.2 h4
  · rintro ⟨heq, hE⟩
    cases heq
    refine ⟨hb.1 hE, isDouble_iff.2 ⟨hc, hE⟩, fun m' e' h' => ?_⟩
    obtain ⟨b1, b2⟩ := approx_best h (isDouble_iff.1 h').1
    rw [← hv] at b1 b2
    refine ⟨b1, fun h1 h2 => hQM (b2 h1 fun hval => h2 ?_).1⟩
    obtain ⟨rfl, rfl⟩ := value_inj (isDouble_iff.1 h').1 hc hval
    rfl

theorem roundsTo_natCast {n m : Nat} {e : Int} : RoundsTo n m e ↔ nearest n 1 = (m, e) ∧ e ≤ 971 := by
  rw [← roundsTo_iff Nat.one_pos]; simp

theorem rounded_iff {num den m : Nat} {k e : Int} (hd : 0 < den) :
    RoundsTo ((num : ℚ) / den * 2 ^ k) m e ↔ rounded num den k = (m, e) ∧ e ≤ 971 := by
  unfold rounded
  rw [← roundsTo_iff (by positivity), zpow_split 2 k]
  push_cast
  rw [div_mul_div_comm]

theorem roundsTo_unique {q : ℚ} {m m' : Nat} {e e' : Int} (hq : 0 ≤ q) (h : RoundsTo q m e) (h' : RoundsTo q m' e') :
    m = m' ∧ e = e' := by
  have hq' : q = (q.num.toNat : ℚ) / q.den := by
    have h0 : (q.num.toNat : Int) = q.num := Int.toNat_of_nonneg (Rat.num_nonneg.2 hq)
    conv_lhs => rw [← Rat.num_div_den q]
    rw [show ((q.num.toNat : Nat) : ℚ) = ((q.num.toNat : Int) : ℚ) from rfl, h0]
  rw [hq', roundsTo_iff q.den_pos] at h h'
  have := h.1.symm.trans h'.1
  cases this
  exact ⟨rfl, rfl⟩

theorem roundsTo_exists {q : ℚ} (hq : 0 ≤ q) (hl : q < tooLarge) : ∃ m e, RoundsTo q m e := by
  have hq' : q = (q.num.toNat : ℚ) / q.den := by
    have h0 : (q.num.toNat : Int) = q.num := Int.toNat_of_nonneg (Rat.num_nonneg.2 hq)
    conv_lhs => rw [← Rat.num_div_den q]
    rw [show ((q.num.toNat : Nat) : ℚ) = ((q.num.toNat : Int) : ℚ) from rfl, h0]
  obtain ⟨e0, Q, h, hn⟩ := nearest_approx q.num.toNat q.den q.den_pos
  rw [← hq'] at h
  refine ⟨(canon Q e0).1, (canon Q e0).2, ?_⟩
  rw [hq', roundsTo_iff q.den_pos]
  exact ⟨hn, (canon_bounded h).2 hl⟩

/-- A double is rounded to itself. -/
theorem roundsTo_self {m : Nat} {e : Int} (h : IsDouble m e) : RoundsTo (value m e) m e := by
  have hc := isDouble_iff.1 h
  refine ⟨?_, h, fun m' e' h' => ?_⟩
  · rw [tooLarge_eq]
    have h1 : (m : ℚ) ≤ 2 ^ 53 - 1 := by
      have := h.1
      have : (m : ℚ) + 1 ≤ 2 ^ 53 := by exact_mod_cast this
      linarith
    have h2 := pow2_le h.2.2.1
    have h3 := pow2_pos e
    unfold value
    calc (m : ℚ) * 2 ^ e ≤ (2 ^ 53 - 1) * 2 ^ e := mul_le_mul_of_nonneg_right h1 h3.le
      _ ≤ (2 ^ 53 - 1) * 2 ^ (971 : Int) := mul_le_mul_of_nonneg_left h2 (by norm_num)
      _ < _ := mul_lt_mul_of_pos_right (by norm_num) (pow2_pos 971)
  · rw [sub_self, abs_zero]
    refine ⟨abs_nonneg _, fun h0 hne => absurd ?_ hne⟩
    have := value_inj hc.1 (isDouble_iff.1 h').1 (by
      have := abs_eq_zero.1 h0.symm
      linarith)
    rw [this.1, this.2]

/-- What lies between a double and a number that is rounded to it is rounded to it too. -/
theorem roundsTo_between {q x : ℚ} {m : Nat} {e : Int} (h : RoundsTo q m e)
    (hx : (q ≤ x ∧ x ≤ value m e) ∨ (value m e ≤ x ∧ x ≤ q)) : RoundsTo x m e := by
  obtain ⟨h1, h2, h3⟩ := h
  have hlarge := (roundsTo_self h2).1
  refine ⟨by rcases hx with ⟨-, hx⟩ | ⟨-, hx⟩ <;> linarith, h2, fun m' e' h' => ?_⟩
  obtain ⟨a1, a2⟩ := h3 m' e' h'
  have hsplit : |q - value m e| = |q - x| + |x - value m e| := by
    rcases hx with ⟨u, v⟩ | ⟨u, v⟩
    · rw [abs_of_nonpos (by linarith), abs_of_nonpos (by linarith), abs_of_nonpos (by linarith)]; ring
    · rw [abs_of_nonneg (by linarith), abs_of_nonneg (by linarith), abs_of_nonneg (by linarith)]; ring
  have htri : |q - value m' e'| ≤ |q - x| + |x - value m' e'| := abs_sub_le _ _ _
  exact ⟨by linarith, fun heq => a2 (by linarith)⟩

/-- The rounding error relative to the number, unless it is very small. -/
theorem roundsTo_error {q : ℚ} {m : Nat} {e : Int} (h : RoundsTo q m e) (hq : 2 ^ (-1022 : Int) ≤ q) :
    |q - value m e| ≤ q * 2 ^ (-53 : Int) := by
  have hq0 : 0 ≤ q := (pow2_pos _).le.trans hq
  have hq' : q = (q.num.toNat : ℚ) / q.den := by
    have h0 : (q.num.toNat : Int) = q.num := Int.toNat_of_nonneg (Rat.num_nonneg.2 hq0)
    conv_lhs => rw [← Rat.num_div_den q]
    rw [show ((q.num.toNat : Nat) : ℚ) = ((q.num.toNat : Int) : ℚ) from rfl, h0]
  obtain ⟨e0, Q, ha, hn⟩ := nearest_approx q.num.toNat q.den q.den_pos
  rw [hq', roundsTo_iff q.den_pos] at h
  rw [← hq'] at ha
  have hv := value_canon Q e0
  have he : canon Q e0 = (m, e) := hn.symm.trans h.1
  rw [he] at hv
  simp only at hv
  rw [hv]
  have hp := pow2_pos e0
  have hround : |q - value Q e0| = |q / 2 ^ e0 - Q| * 2 ^ e0 := by
    rw [← abs_of_pos hp, ← abs_mul, abs_of_pos hp]
    congr 1
    unfold value
    field_simp
  rw [hround]
  have hge : (2 : ℚ) ^ (e0 + 52) ≤ q := by
    rcases ha.ge with h0 | h0
    · rw [h0]; exact hq
    · exact h0
  calc |q / 2 ^ e0 - Q| * 2 ^ e0 ≤ 1 / 2 * 2 ^ e0 := mul_le_mul_of_nonneg_right ha.round.1 hp.le
    _ = 2 ^ (e0 + 52) * 2 ^ (-53 : Int) := by
      rw [← pow2_add, show e0 + 52 + -53 = -1 + e0 by omega, pow2_add]; norm_num
    _ ≤ _ := mul_le_mul_of_nonneg_right hge (pow2_pos _).le

end Json
end Oid4vci
