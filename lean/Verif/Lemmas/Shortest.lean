import Verif.Lemmas.Number

/-! Writing numbers: `ryu`'s result is the shortest decimal, and its text is a number of RFC 8259. -/

namespace Oid4vci
namespace Json

open Spec

/-! ### The closest multiple -/

theorem denotes_iff {D : Nat} {k : Int} {m : Nat} {e : Int} (he : e ≤ 971) :
    denotes D k m e = true ↔ RoundsTo (D * 10 ^ k) m e := by
  have hv : (D : ℚ) * 10 ^ k = ((D * 10 ^ k.toNat : Nat) : ℚ) / ((10 ^ (-k).toNat : Nat) : ℚ) := by
    rw [zpow_split 10 k]
    push_cast
    ring
  rw [hv, roundsTo_iff (by positivity)]
  simp [denotes, he]

/-- `D` is the member of `R` closest to `y`, ties to even. -/
def Best (R : Nat → Prop) (y : ℚ) (D : Nat) : Prop :=
  R D ∧ ∀ D' : Nat, R D' → |y - D| ≤ |y - D'| ∧ (|y - D| = |y - D'| → D' ≠ D → 2 ∣ D ∧ ¬ 2 ∣ D')

theorem best_floor {R : Nat → Prop} {y : ℚ} {D : Nat} (h0 : (D : ℚ) ≤ y) (hR : R D)
    (hi : ∀ D', D + 1 ≤ D' → R D' → R (D + 1))
    (h : y - D < 1 / 2 ∨ (y - D = 1 / 2 ∧ 2 ∣ D) ∨ ¬ R (D + 1)) (h1 : y < D + 1) : Best R y D := by
  refine ⟨hR, fun D' h' => ?_⟩
  rw [abs_of_nonneg (by linarith : 0 ≤ y - D)]
  rcases Nat.lt_or_ge D D' with hlt | hle
  · have hc : (D : ℚ) + 1 ≤ D' := by exact_mod_cast hlt
    rw [abs_of_nonpos (by linarith : y - D' ≤ 0)]
    rcases h with h | ⟨h, h2⟩ | h
    · exact ⟨by linarith, fun he => by linarith⟩
    · refine ⟨by linarith, fun he _ => ⟨h2, ?_⟩⟩
      have : (D' : ℚ) = (D + 1 : Nat) := by push_cast; linarith
      have : D' = D + 1 := by exact_mod_cast this
      omega
    · exact absurd (hi D' hlt h') h
  · have hc : (D' : ℚ) ≤ D := by exact_mod_cast hle
    rw [abs_of_nonneg (by linarith : 0 ≤ y - D')]
    refine ⟨by linarith, fun he hne => absurd ?_ hne⟩
    have : (D' : ℚ) = D := by linarith
    exact_mod_cast this

theorem best_ceil {R : Nat → Prop} {y : ℚ} {D : Nat} (h1 : y < D + 1) (hR : R (D + 1))
    (lo : ∀ D' ≤ D, R D' → R D)
    (h : R D → 1 / 2 < y - D ∨ (y - D = 1 / 2 ∧ ¬ 2 ∣ D)) (h0 : (D : ℚ) ≤ y) : Best R y (D + 1) := by
  refine ⟨hR, fun D' h' => ?_⟩
  push_cast
  rw [abs_of_nonpos (by linarith : y - (D + 1) ≤ 0)]
  rcases Nat.lt_or_ge D D' with hlt | hle
  · have hc : (D : ℚ) + 1 ≤ D' := by exact_mod_cast hlt
    rw [abs_of_nonpos (by linarith : y - D' ≤ 0)]
    refine ⟨by linarith, fun he hne => absurd ?_ hne⟩
    have : (D' : ℚ) = (D + 1 : Nat) := by push_cast; linarith
    exact_mod_cast this
  · have hc : (D' : ℚ) ≤ D := by exact_mod_cast hle
    rw [abs_of_nonneg (by linarith : 0 ≤ y - D')]
    rcases h (lo D' hle h') with h | ⟨h, h2⟩
    · exact ⟨by linarith, fun he => by linarith⟩
    · refine ⟨by linarith, fun he _ => ?_⟩
      have : (D' : ℚ) = D := by linarith
      have : D' = D := by exact_mod_cast this
      subst this
      omega

theorem decimalAt_spec {m : Nat} {e : Int} (h : IsDouble m e) (k : Int) :
    let R : Nat → Prop := fun D => RoundsTo (D * 10 ^ k) m e
    (∀ D, decimalAt m e k = some D → Best R (value m e / 10 ^ k) D) ∧
    (decimalAt m e k = none → ∀ D, ¬ R D) := by
  intro R
  have ht := pow10_pos k
  have hab : ((m * 2 ^ e.toNat * 10 ^ (-k).toNat : Nat) : ℚ) / ((2 ^ (-e).toNat * 10 ^ k.toNat : Nat) : ℚ)
      = value m e / 10 ^ k := by
    unfold value
    rw [zpow_split 10 k, zpow_split 2 e]
    push_cast
    field_simp
  have hb : 0 < 2 ^ (-e).toNat * 10 ^ k.toNat := by positivity
  have hdR : ∀ D, denotes D k m e = true ↔ R D := fun D => denotes_iff h.2.2.1
  unfold decimalAt
  simp only
  generalize m * 2 ^ e.toNat * 10 ^ (-k).toNat = a at *
  generalize 2 ^ (-e).toNat * 10 ^ k.toNat = b at *
  have hd := Nat.div_add_mod a b
  have hm := Nat.mod_lt a hb
  have hb' : (0 : ℚ) < b := by exact_mod_cast hb
  generalize a / b = D0 at *
  generalize a % b = r at *
  generalize hy : value m e / 10 ^ k = y at *
  have hyv : value m e = y * 10 ^ k := by rw [← hy]; field_simp
  have hx : y = D0 + r / b := by
    rw [← hab, ← hd]; push_cast; field_simp
  have hr0 : (0 : ℚ) ≤ (r : ℚ) / b := by positivity
  have hr1 : (r : ℚ) / b < 1 := by rw [div_lt_one hb']; exact_mod_cast hm
  have y0 : (D0 : ℚ) ≤ y := by linarith
  have y1 : y < D0 + 1 := by linarith
  have lo : ∀ D' ≤ D0, R D' → R D0 := by
    intro D' hle hR
    refine roundsTo_between hR (.inl ⟨?_, ?_⟩)
    · exact mul_le_mul_of_nonneg_right (by exact_mod_cast hle) ht.le
    · rw [hyv]; exact mul_le_mul_of_nonneg_right y0 ht.le
  have hi : ∀ D', D0 + 1 ≤ D' → R D' → R (D0 + 1) := by
    intro D' hle hR
    refine roundsTo_between hR (.inr ⟨?_, ?_⟩)
    · rw [hyv]; push_cast; exact mul_le_mul_of_nonneg_right y1.le ht.le
    · exact mul_le_mul_of_nonneg_right (by exact_mod_cast hle) ht.le
  have hlt : 2 * r < b ↔ y - D0 < 1 / 2 := by
    rw [hx, add_sub_cancel_left, div_lt_div_iff₀ hb' (by norm_num)]
    constructor
    · intro h; exact_mod_cast (by omega : r * 2 < 1 * b)
    · intro h; have : r * 2 < 1 * b := by exact_mod_cast h
      omega
  have heq : 2 * r = b ↔ y - D0 = 1 / 2 := by
    rw [hx, add_sub_cancel_left, div_eq_div_iff hb'.ne' (by norm_num)]
    constructor
    · intro h; exact_mod_cast (by omega : r * 2 = 1 * b)
    · intro h; have : r * 2 = 1 * b := by exact_mod_cast h
      omega
  have hcond : (denotes D0 k m e && (2 * r < b || (2 * r == b && D0 % 2 == 0) || !denotes (D0 + 1) k m e)) = true ↔
      R D0 ∧ (y - D0 < 1 / 2 ∨ (y - D0 = 1 / 2 ∧ 2 ∣ D0) ∨ ¬ R (D0 + 1)) := by
    rw [← hdR, ← hdR, ← hlt, ← heq, Nat.dvd_iff_mod_eq_zero]
    simp only [Bool.and_eq_true, Bool.or_eq_true, decide_eq_true_eq, beq_iff_eq, Bool.not_eq_true',
      Bool.not_eq_true, or_assoc]
  by_cases hc : R D0 ∧ (y - D0 < 1 / 2 ∨ (y - D0 = 1 / 2 ∧ 2 ∣ D0) ∨ ¬ R (D0 + 1))
  · rw [if_pos (hcond.2 hc)]
    refine ⟨?_, by simp⟩
    intro D hD
    cases hD
    exact best_floor y0 hc.1 hi hc.2 y1
  · rw [if_neg (mt hcond.1 hc)]
    by_cases h1 : R (D0 + 1)
    · rw [if_pos ((hdR _).2 h1)]
      refine ⟨?_, by simp⟩
      intro D hD
      cases hD
      refine best_ceil y1 h1 lo (fun hR => ?_) y0
      push Not at hc
      obtain ⟨c1, c2, -⟩ := hc hR
      rcases lt_or_eq_of_le c1 with h | h
      · exact .inl h
      · exact .inr ⟨h.symm, c2 h.symm⟩
    · rw [if_neg (mt (hdR _).1 h1)]
      refine ⟨by simp, fun _ D hR => ?_⟩
      rcases Nat.lt_or_ge D0 D with hlt | hle
      · exact h1 (hi D hlt hR)
      · exact hc ⟨lo D hle hR, .inr (.inr h1)⟩

/-! ### The shortest decimal -/

theorem decimalBelow_spec {m : Nat} {e : Int} (n : Nat) (h : ∃ j < n, decimalAt m e ((j : Int) - 1074) ≠ none) :
    ∃ D j, j < n ∧ decimalBelow m e n = (D, (j : Int) - 1074) ∧ decimalAt m e ((j : Int) - 1074) = some D ∧
      ∀ j', j < j' → j' < n → decimalAt m e ((j' : Int) - 1074) = none := by
  induction n with
  | zero => obtain ⟨j, hj, -⟩ := h; omega
  | succ n ih =>
    rw [decimalBelow]
    cases hd : decimalAt m e ((n : Int) - 1074) with
    | some D => exact ⟨D, n, by omega, by simp only, hd, fun j' _ _ => by omega⟩
    | none =>
      obtain ⟨j, hj, hne⟩ := h
      have hjn : j ≠ n := by rintro rfl; exact hne hd
      obtain ⟨D, j', h1, h2, h3, h4⟩ := ih ⟨j, by omega, hne⟩
      refine ⟨D, j', by omega, h2, h3, fun j'' h5 h6 => ?_⟩
      by_cases h7 : j'' = n
      · rw [h7]; exact hd
      · exact h4 j'' h5 (by omega)

theorem roundsTo_zero {m : Nat} {e : Int} (h : RoundsTo 0 m e) : m = 0 := by
  have := @roundsTo_natCast 0 m e
  rw [Nat.cast_zero] at this
  have := (this.1 h).1
  simp only [nearest, if_true, Prod.mk.injEq] at this
  exact this.1.symm

theorem best_shortest {m : Nat} {e : Int} {D : Nat} {k : Int} :
    (Best (fun D => RoundsTo (D * 10 ^ k) m e) (value m e / 10 ^ k) D →
      RoundsTo (D * 10 ^ k) m e ∧
      ∀ D' : Nat, RoundsTo (D' * 10 ^ k) m e → |value m e - D * 10 ^ k| ≤ |value m e - D' * 10 ^ k| ∧
        (|value m e - D * 10 ^ k| = |value m e - D' * 10 ^ k| → D' ≠ D → 2 ∣ D ∧ ¬ 2 ∣ D')) := by
  have ht := pow10_pos k
  have scale : ∀ N : Nat, |value m e - N * 10 ^ k| = |value m e / 10 ^ k - N| * 10 ^ k := by
    intro N
    have : value m e - N * 10 ^ k = (value m e / 10 ^ k - N) * 10 ^ k := by field_simp
    rw [this, abs_mul, abs_of_pos ht]
  rintro ⟨h1, h2⟩
  refine ⟨h1, fun D' h' => ?_⟩
  obtain ⟨a1, a2⟩ := h2 D' h'
  rw [scale, scale]
  exact ⟨mul_le_mul_of_nonneg_right a1 ht.le, fun he => a2 (mul_right_cancel₀ ht.ne' he)⟩

theorem exact_decimal {m : Nat} {e : Int} (h : IsDouble m e) : decimalAt m e (-1074) ≠ none := by
  intro hn
  obtain ⟨n, hn'⟩ := Int.eq_ofNat_of_zero_le (show 0 ≤ e + 1074 by have := h.2.1; omega)
  refine (decimalAt_spec h (-1074)).2 hn (m * 2 ^ n * 5 ^ 1074) ?_
  have : ((m * 2 ^ n * 5 ^ 1074 : Nat) : ℚ) * 10 ^ (-1074 : Int) = value m e := by
    have e1 : (10 : ℚ) ^ (-1074 : Int) = 2 ^ (-1074 : Int) * (5 ^ 1074)⁻¹ := by
      rw [show (10 : ℚ) = 2 * 5 by norm_num, mul_zpow]
      congr 1
    have e2 : (2 : ℚ) ^ e = 2 ^ n * 2 ^ (-1074 : Int) := by
      rw [← zpow_natCast, ← pow2_add]
      congr 1
      omega
    rw [e1]
    unfold value
    rw [e2, Nat.cast_mul, Nat.cast_mul, Nat.cast_pow, Nat.cast_pow]
    have e5 : ((5 : Nat) : ℚ) ^ 1074 * ((5 : ℚ) ^ 1074)⁻¹ = 1 := mul_inv_cancel₀ (pow_ne_zero _ (by norm_num))
    generalize ((5 : ℚ) ^ 1074)⁻¹ = B at *
    generalize ((5 : Nat) : ℚ) ^ 1074 = A at *
    generalize (2 : ℚ) ^ (-1074 : Int) = C at *
    have : ((2 : Nat) : ℚ) = 2 := by norm_num
    rw [this]
    calc (m : ℚ) * 2 ^ n * A * (C * B) = (m : ℚ) * 2 ^ n * C * (A * B) := by ring
      _ = _ := by rw [e5]; ring
  beta_reduce
  rw [this]
  exact roundsTo_self h

theorem not_roundsTo_large {m : Nat} {e : Int} (hm : m ≠ 0) {D : Nat} {k : Int} (hk : 310 ≤ k) :
    ¬ RoundsTo (D * 10 ^ k) m e := by
  intro h
  by_cases hD : D = 0
  · subst hD
    rw [Nat.cast_zero, zero_mul] at h
    exact hm (roundsTo_zero h)
  · have h1 : (1 : ℚ) ≤ D := by exact_mod_cast Nat.one_le_iff_ne_zero.2 hD
    have h2 : (10 : ℚ) ^ (310 : Int) ≤ 10 ^ k := zpow_le_zpow_right₀ (by norm_num) hk
    have h3 : (tooLarge : ℚ) < 10 ^ (310 : Int) := by
      have : tooLarge < 10 ^ 310 := by decide +kernel
      exact_mod_cast this
    have h4 : (1 : ℚ) * 10 ^ k ≤ D * 10 ^ k := mul_le_mul_of_nonneg_right h1 (pow10_pos k).le
    have h5 := h.1
    linarith

theorem shortest_decimal {m : Nat} {e : Int} (h : IsDouble m e) (hm : m ≠ 0) :
    Shortest m e (decimalBelow m e 1384).1 (decimalBelow m e 1384).2 := by
  obtain ⟨D, j, hj, h1, h2, h3⟩ := decimalBelow_spec 1384 (m := m) (e := e) ⟨0, by norm_num, exact_decimal h⟩
  rw [h1]
  simp only
  obtain ⟨b1, b2⟩ := best_shortest ((decimalAt_spec h _).1 D h2)
  refine ⟨b1, fun D' k' hr => ?_, fun D' hr => ⟨(b2 D' hr).1, fun he hne => ((b2 D' hr).2 he hne).1⟩⟩
  by_contra hk
  by_cases hbig : 310 ≤ k'
  · exact not_roundsTo_large hm hbig hr
  obtain ⟨j', hj'⟩ := Int.eq_ofNat_of_zero_le (show 0 ≤ k' + 1074 by omega)
  obtain rfl : k' = (j' : Int) - 1074 := by omega
  exact (decimalAt_spec h _).2 (h3 j' (by omega) (by omega)) D' hr

theorem shortest_unique {m : Nat} {e : Int} (h : IsDouble m e) {D D' : Nat} {k k' : Int}
    (hs : Shortest m e D k) (hs' : Shortest m e D' k') : D = D' ∧ k = k' := by
  obtain rfl : k = k' := le_antisymm (hs'.2.1 _ _ hs.1) (hs.2.1 _ _ hs'.1)
  refine ⟨?_, rfl⟩
  have key : ∀ D, Shortest m e D k → ∀ B, decimalAt m e k = some B → D = B := by
    intro D hs B hB
    obtain ⟨b1, b2⟩ := best_shortest ((decimalAt_spec h k).1 B hB)
    obtain ⟨a1, a2⟩ := hs.2.2 B b1
    obtain ⟨c1, c2⟩ := b2 D hs.1
    by_contra hne
    have heq := le_antisymm a1 c1
    exact (c2 heq.symm hne).2 (a2 heq (Ne.symm hne))
  cases hd : decimalAt m e k with
  | none => exact absurd hs.1 ((decimalAt_spec h k).2 hd D)
  | some B => rw [key D hs B hd, key D' hs' B hd]

/-! ### Digits -/

theorem digitsVal_pos {s : Str} (h : ∀ c ∈ s, isDigit c = true) (hne : s ≠ []) (h0 : s.head? ≠ some '0') :
    digitsVal s ≠ 0 := by
  cases s with
  | nil => exact absurd rfl hne
  | cons c s =>
    rw [digitsVal_numeral, List.map_cons]
    have h1 := numeral_le_append [c.toNat - 48] (s.map fun c => c.toNat - 48)
    have h2 : numeral 10 [c.toNat - 48] = c.toNat - 48 := by simp [numeral]
    have h3 : c.toNat - 48 ≠ 0 := fun h' => h0 (by rw [(zero_digit (h c (by simp))).1 h']; rfl)
    rw [List.singleton_append] at h1
    omega

theorem ofNat_digit {c : Char} (h : isDigit c = true) : Char.ofNat (48 + (c.toNat - 48)) = c ∧ c.toNat - 48 < 10 := by
  have : 48 ≤ c.toNat ∧ c.toNat ≤ 57 := by simpa [isDigit] using h
  refine ⟨?_, by omega⟩
  rw [show 48 + (c.toNat - 48) = c.toNat by omega, Char.ofNat_toNat]

theorem natDigitsAux_digitsVal (s : Str) (h : ∀ c ∈ s, isDigit c = true) (hne : s ≠ [])
    (h0 : s.head? = some '0' → s = ['0']) : ∀ f, digitsVal s < f → natDigitsAux f (digitsVal s) [] = s := by
  induction s using List.reverseRecOn with
  | nil => exact absurd rfl hne
  | append_singleton t c ih =>
    intro f hf
    obtain ⟨f, rfl⟩ : ∃ g, f = g + 1 := ⟨f - 1, by omega⟩
    obtain ⟨d1, d2⟩ := ofNat_digit (h c (by simp))
    rw [digitsVal_snoc] at hf ⊢
    have e1 : (digitsVal t * 10 + (c.toNat - 48)) % 10 = c.toNat - 48 := by omega
    have e2 : (digitsVal t * 10 + (c.toNat - 48)) / 10 = digitsVal t := by omega
    rw [natDigitsAux]
    simp only [e1, e2, d1]
    by_cases ht : t = []
    · subst ht; simp [digitsVal]
    · have hh : t.head? ≠ some '0' := by
        intro hh
        have := h0 (by rw [List.head?_append, hh]; rfl)
        cases t with
        | nil => exact ht rfl
        | cons x t => simp at this
      have hp := digitsVal_pos (fun c hc => h c (by simp [hc])) ht hh
      rw [if_neg hp, natDigitsAux_acc, ih (fun c hc => h c (by simp [hc])) ht (fun h' => absurd h' hh) f (by omega)]

theorem natDigits_digitsVal {s : Str} (h : ∀ c ∈ s, isDigit c = true) (hne : s ≠ [])
    (h0 : s.head? = some '0' → s = ['0']) : natDigits (digitsVal s) = s :=
  natDigitsAux_digitsVal s h hne h0 _ (by omega)

theorem natDigits_props (n : Nat) : (∀ c ∈ natDigits n, isDigit c = true) ∧ digitsVal (natDigits n) = n ∧
    natDigits n ≠ [] ∧ (n ≠ 0 → (natDigits n).head? ≠ some '0') ∧ (n = 0 → natDigits n = ['0']) :=
  natDigits_facts (n + 1) n (by omega)

theorem head_digits {s : Str} (h : ∀ c ∈ s, isDigit c = true) :
    (s.map fun c => c.toNat - 48).head? = some 0 ↔ s.head? = some '0' := by
  cases s with
  | nil => simp
  | cons c s => simp [zero_digit (h c (by simp))]

theorem integerText_iff {n : Int} {s : Str} : IntegerText n s ↔ printInt n = s := by
  have zero : ∀ {t : Str}, (∀ c ∈ t, isDigit c = true) → ((t.map fun c => c.toNat - 48).head? = some 0 →
      (t.map fun c => c.toNat - 48) = [0]) → t.head? = some '0' → t = ['0'] := by
    intro t hd h h0
    have := h ((head_digits hd).2 h0)
    match t, hd, h0 with
    | [c], hd, h0 => simpa using h0
    | c :: c' :: t, hd, h0 => simp at this
  constructor
  · rintro ⟨ds, t, hd, hz, h⟩
    obtain ⟨h1, h2, rfl⟩ := digitsText_iff.1 hd
    have := natDigits_digitsVal h2 h1 (zero h2 hz)
    rw [digitsVal_numeral] at this
    rcases h with ⟨rfl, rfl⟩ | ⟨rfl, rfl, hne⟩
    · exact this
    · obtain ⟨k, hk⟩ : ∃ k, numeral 10 (t.map fun c => c.toNat - 48) = k + 1 :=
        Nat.exists_eq_succ_of_ne_zero (by omega)
      rw [hk] at this ⊢
      rw [show (-((k + 1 : Nat) : Int)) = Int.negSucc k from rfl, printInt, this]
  · rintro rfl
    have key : ∀ n : Nat, ∃ ds, DigitsText ds (natDigits n) ∧ (ds.head? = some 0 → ds = [0]) ∧ n = numeral 10 ds := by
      intro n
      obtain ⟨p1, p2, p3, p4, p5⟩ := natDigits_props n
      refine ⟨_, digitsText_iff.2 ⟨p3, p1, rfl⟩, ?_, by rw [← digitsVal_numeral, p2]⟩
      intro hh
      rw [head_digits p1] at hh
      by_cases hn : n = 0
      · rw [p5 hn]; rfl
      · exact absurd hh (p4 hn)
    cases n with
    | ofNat n =>
      obtain ⟨ds, k1, k2, k3⟩ := key n
      exact ⟨ds, _, k1, k2, .inl ⟨rfl, by rw [← k3]; rfl⟩⟩
    | negSucc n =>
      obtain ⟨ds, k1, k2, k3⟩ := key (n + 1)
      exact ⟨ds, _, k1, k2, .inr ⟨rfl, by rw [← k3]; rfl, by simp⟩⟩

/-! ### The text -/

theorem laid_iff {ds : Str} (hds : ds ≠ []) {k : Int} {t : Str} : Laid ds k t ↔ layout ds k = t := by
  have hlen : 0 < ds.length := List.length_pos_of_ne_nil hds
  constructor
  · intro h
    unfold layout
    simp only
    cases h with
    | whole h1 h2 => rw [if_pos ⟨h1, h2⟩]
    | inside a b h1 h2 h3 h4 h5 =>
      have ha := List.length_pos_of_ne_nil h2
      have hb := List.length_pos_of_ne_nil h4
      have hl : ds.length = a.length + b.length := by rw [h1, List.length_append]
      rw [if_neg (by omega), if_pos (by omega)]
      have : ((ds.length : Int) + k).toNat = a.length := by omega
      rw [this, h1]
      simp
    | small n h1 h2 =>
      rw [if_neg (by omega), if_neg (by omega), if_pos (by omega)]
      have : (-((ds.length : Int) + k)).toNat = n := by omega
      rw [this]
    | single c x h1 h2 h3 =>
      have hl : ds.length = 1 := by rw [h1]; rfl
      rw [if_neg (by omega), if_neg (by omega), if_neg (by omega), if_pos hl, ← integerText_iff.1 h3, h1]
      simp
    | scientific c r x h1 h2 h3 h4 =>
      have hr := List.length_pos_of_ne_nil h2
      have hl : ds.length = r.length + 1 := by rw [h1]; rfl
      rw [if_neg (by omega), if_neg (by omega), if_neg (by omega), if_neg (by omega), ← integerText_iff.1 h4]
      have : (ds.length : Int) + k - 1 = r.length + k := by omega
      rw [this, h1]
      simp
  · rintro rfl
    unfold layout
    simp only
    split
    · rename_i h; exact .whole h.1 h.2
    split
    · rename_i h1 h2
      refine .inside _ _ (List.take_append_drop _ _).symm ?_ ?_ ?_ ?_
      · intro h; have := congrArg List.length h; simp only [List.length_take, List.length_nil] at this; omega
      · simp only [List.length_drop]; omega
      · intro h; have := congrArg List.length h; simp only [List.length_drop, List.length_nil] at this; omega
      · simp only [List.length_take]; omega
    split
    · rename_i h1 h2 h3
      exact .small _ (by omega) (by omega)
    split
    · rename_i h1 h2 h3 h4
      obtain ⟨c, rfl⟩ := List.length_eq_one_iff.1 h4
      refine .single c _ rfl (by simp only [List.length_singleton] at *; omega) (integerText_iff.2 ?_)
      congr 1
      simp only [List.length_singleton]; omega
    · rename_i h1 h2 h3 h4
      cases ds with
      | nil => exact absurd rfl hds
      | cons c r =>
        refine .scientific c r _ rfl ?_ (by simp only [List.length_cons] at *; omega) (integerText_iff.2 ?_)
        · rintro rfl; exact h4 rfl
        · congr 1
          simp only [List.length_cons]; omega

theorem digitsText_nonzero {D : Nat} {u : Str} :
    (∃ ds, DigitsText ds u ∧ ds.head? ≠ some 0 ∧ D = numeral 10 ds) ↔ D ≠ 0 ∧ natDigits D = u := by
  constructor
  · rintro ⟨ds, hd, h0, rfl⟩
    obtain ⟨h1, h2, rfl⟩ := digitsText_iff.1 hd
    rw [ne_eq, head_digits h2] at h0
    rw [← digitsVal_numeral]
    exact ⟨digitsVal_pos h2 h1 h0, natDigits_digitsVal h2 h1 fun h => absurd h h0⟩
  · rintro ⟨hD, rfl⟩
    obtain ⟨p1, p2, p3, p4, -⟩ := natDigits_props D
    exact ⟨_, digitsText_iff.2 ⟨p3, p1, rfl⟩, by rw [ne_eq, head_digits p1]; exact p4 hD, by rw [← digitsVal_numeral, p2]⟩

theorem shortest_ne_zero {m : Nat} {e : Int} (hm : m ≠ 0) {D : Nat} {k : Int} (h : Shortest m e D k) : D ≠ 0 := by
  rintro rfl
  have := h.1
  rw [Nat.cast_zero, zero_mul] at this
  exact hm (roundsTo_zero this)

theorem shown_iff {d : Double} (hd : IsDouble d.mant d.exp) {s : Str} : Shown d s ↔ printFloat d = s := by
  unfold Shown printFloat
  by_cases hm : d.mant = 0
  · simp only [hm, if_true, ne_eq, not_true_eq_false, false_and, or_false, true_and]
    constructor
    · rintro ⟨t, rfl, rfl⟩; rfl
    · rintro rfl; exact ⟨_, rfl, rfl⟩
  · have hs := shortest_decimal hd hm
    simp only [hm, if_false, false_and, false_or, ne_eq, not_false_eq_true, true_and]
    generalize decimalBelow d.mant d.exp 1384 = p at *
    have hD := shortest_ne_zero hm hs
    constructor
    · rintro ⟨t, rfl, D, k, ds, u, h1, h2, h3, h4, h5⟩
      obtain ⟨rfl, rfl⟩ := shortest_unique hd h1 hs
      have hu := (digitsText_nonzero.1 ⟨ds, h2, h3, h4⟩).2
      have hne : u ≠ [] := (digitsText_iff.1 h2).1
      rw [hu, (laid_iff hne).1 h5]
    · rintro rfl
      obtain ⟨ds, h2, h3, h4⟩ := digitsText_nonzero.2 ⟨hD, rfl⟩
      exact ⟨_, rfl, p.1, p.2, ds, _, hs, h2, h3, h4, (laid_iff (natDigits_props p.1).2.2.1).2 rfl⟩

theorem shown_printFloat {d : Double} (hd : IsDouble d.mant d.exp) : Shown d (printFloat d) := (shown_iff hd).2 rfl

theorem survives_iff {d : Double} : Survives d ↔ IsDouble d.mant d.exp ∧ ReadAs (printFloat d) d := by
  constructor
  · rintro ⟨h1, h2⟩; exact ⟨h1, h2 _ (shown_printFloat h1)⟩
  · rintro ⟨h1, h2⟩; exact ⟨h1, fun s hs => by rw [← (shown_iff h1).1 hs]; exact h2⟩

/-! ### Its parts -/

theorem digit_zero : DigitsText [0] ['0'] := digitsText_iff.2 (by decide)

theorem numeral_zeros (a : List Nat) (n : Nat) : numeral 10 (a ++ List.replicate n 0) = numeral 10 a * 10 ^ n := by
  rw [numeral_split, List.length_replicate]
  have : numeral 10 (List.replicate n 0) = 0 := by
    induction n with
    | zero => rfl
    | succ n ih => rw [List.replicate_succ', numeral_snoc, ih]
  omega

theorem zeros_numeral (a : List Nat) (n : Nat) : numeral 10 (List.replicate n 0 ++ a) = numeral 10 a := by
  rw [numeral_split]
  have : numeral 10 (List.replicate n 0) = 0 := by
    induction n with
    | zero => rfl
    | succ n ih => rw [List.replicate_succ', numeral_snoc, ih]
  rw [this]; omega

theorem digitsText_append {a b : List Nat} {s t : Str} (hs : DigitsText a s) (ht : DigitsText b t) :
    DigitsText (a ++ b) (s ++ t) := by
  obtain ⟨h1, h2, rfl⟩ := digitsText_iff.1 hs
  obtain ⟨-, h4, rfl⟩ := digitsText_iff.1 ht
  refine digitsText_iff.2 ⟨by simp [h1], ?_, by simp⟩
  intro c hc
  rcases List.mem_append.1 hc with h | h
  · exact h2 c h
  · exact h4 c h

theorem digitsText_zeros (n : Nat) : Written digits (List.replicate n 0) (List.replicate n '0') := by
  rw [written_digits]
  constructor
  · intro c hc; rw [List.eq_of_mem_replicate hc]; decide
  · simp

theorem written_append {a b : List Nat} {s t : Str} (hs : Written digits a s) (ht : Written digits b t) :
    Written digits (a ++ b) (s ++ t) := by
  obtain ⟨h2, rfl⟩ := written_digits.1 hs
  obtain ⟨h4, rfl⟩ := written_digits.1 ht
  refine written_digits.2 ⟨?_, by simp⟩
  intro c hc
  rcases List.mem_append.1 hc with h | h
  · exact h2 c h
  · exact h4 c h

/-- The parts of the text of `D * 10^k`. -/
theorem laid_parts {ds : List Nat} {u t : Str} {k : Int} (hu : DigitsText ds u) (h0 : ds.head? ≠ some 0)
    (h : Laid u k t) : ∃ (si sf se : Str) (i f : List Nat) (x : Int), t = si ++ sf ++ se ∧ DigitsText i si ∧ (i.head? = some 0 → i = [0]) ∧
      ((sf = [] ∧ f = []) ∨ ∃ t, DigitsText f t ∧ sf = '.' :: t) ∧
      ((se = [] ∧ x = 0) ∨ ∃ ds t, DigitsText ds t ∧
        ((se = 'e' :: t ∧ x = numeral 10 ds) ∨ (se = 'e' :: '-' :: t ∧ x = -(numeral 10 ds : Int)))) ∧
      sf ++ se ≠ [] ∧
      ((0 ≤ k ∧ ds.length + k ≤ 16 ∧ numeral 10 (i ++ f) = numeral 10 ds * 10 ^ (k.toNat + 1) ∧
          x - f.length = -1) ∨
        ((k < 0 ∨ 16 < ds.length + k) ∧ numeral 10 (i ++ f) = numeral 10 ds ∧ x - f.length = k)) := by
  obtain ⟨u1, u2⟩ := hu
  have hlen : u.length = ds.length := by
    rw [(written_digits.1 u2).2, List.length_map]
  have exp : ∀ {n x}, IntegerText n x → ∃ ds t, DigitsText ds t ∧
      (('e' :: x = 'e' :: t ∧ n = numeral 10 ds) ∨ ('e' :: x = 'e' :: '-' :: t ∧ n = -(numeral 10 ds : Int))) := by
    rintro n x ⟨ds, t, hd, -, ⟨rfl, h⟩ | ⟨rfl, h, -⟩⟩
    · exact ⟨ds, _, hd, .inl ⟨rfl, h⟩⟩
    · exact ⟨ds, _, hd, .inr ⟨rfl, h⟩⟩
  have hcons : ∀ {c r}, u = c :: r → ∃ d, DigitsText [d] [c] ∧ Written digits (ds.drop 1) r ∧ ds = d :: ds.drop 1 := by
    intro c r hu
    obtain ⟨w1, w2⟩ := written_digits.1 u2
    subst hu
    refine ⟨c.toNat - 48, ⟨by simp, written_digits.2 ⟨?_, by simp⟩⟩, written_digits.2 ⟨?_, ?_⟩, ?_⟩
    · intro x hx; exact w1 x (by simp at hx; simp [hx])
    · intro x hx; exact w1 x (by simp [hx])
    · rw [w2]; simp
    · rw [w2]; simp
  cases h with
  | whole h1 h2 =>
    refine ⟨u ++ List.replicate k.toNat '0', str! ".0", [], ds ++ List.replicate k.toNat 0, [0], 0, by simp,
      ⟨by simp [u1], written_append u2 (digitsText_zeros _)⟩, ?_, .inr ⟨['0'], digit_zero, rfl⟩, .inl ⟨rfl, rfl⟩,
      by simp, .inl ⟨h1, by omega, ?_, by simp⟩⟩
    · intro h
      cases ds with
      | nil => exact absurd rfl u1
      | cons d ds => exact absurd (by simpa using h) h0
    · rw [show [0] = List.replicate 1 0 from rfl, List.append_assoc, List.replicate_append_replicate, numeral_zeros]
  | inside a b h1 h2 h3 h4 h5 =>
    obtain ⟨w1, w2⟩ := written_digits.1 u2
    subst h1
    have ha : DigitsText (a.map fun c => c.toNat - 48) a :=
      digitsText_iff.2 ⟨h2, fun c hc => w1 c (by simp [hc]), rfl⟩
    have hb : DigitsText (b.map fun c => c.toNat - 48) b :=
      digitsText_iff.2 ⟨h4, fun c hc => w1 c (by simp [hc]), rfl⟩
    have hbl := List.length_pos_of_ne_nil h4
    refine ⟨a, '.' :: b, [], _, _, 0, by simp, ha, ?_, .inr ⟨b, hb, rfl⟩, .inl ⟨rfl, rfl⟩, by simp,
      .inr ⟨.inl (by omega), by rw [w2, List.map_append], by simp only [List.length_map]; omega⟩⟩
    intro h
    cases a with
    | nil => exact absurd rfl h2
    | cons c a => exact absurd (by rw [w2]; simpa using h) h0
  | small n h1 h2 =>
    have hul := List.length_pos_of_ne_nil u1
    refine ⟨['0'], '.' :: (List.replicate n '0' ++ u), [], [0], List.replicate n 0 ++ ds, 0, by simp, digit_zero, by simp,
      .inr ⟨_, ⟨by simp [u1], written_append (digitsText_zeros n) u2⟩, rfl⟩, .inl ⟨rfl, rfl⟩, by simp,
      .inr ⟨.inl (by omega), ?_, by simp only [List.length_append, List.length_replicate]; omega⟩⟩
    rw [show [0] = List.replicate 1 0 from rfl, ← List.append_assoc, List.replicate_append_replicate, zeros_numeral]
  | single c x h1 h2 h3 =>
    obtain ⟨d, d1, -, d3⟩ := hcons h1
    have hl : ds.length = 1 := by rw [← hlen, h1]; rfl
    have hds : ds = [d] := by
      rw [d3] at hl
      rw [d3, List.length_eq_zero_iff.1 (by simpa using hl : (ds.drop 1).length = 0)]
    obtain ⟨es, et, e1, e2⟩ := exp h3
    refine ⟨[c], [], 'e' :: x, [d], [], k, by simp, d1, ?_, .inl ⟨rfl, rfl⟩, .inr ⟨es, et, e1, e2⟩, by simp,
      .inr ⟨by omega, by rw [hds]; rfl, by simp⟩⟩
    intro h
    simpa using h
  | scientific c r x h1 h2 h3 h4 =>
    obtain ⟨d, d1, d2, d3⟩ := hcons h1
    have hl : ds.length = r.length + 1 := by rw [← hlen, h1]; rfl
    obtain ⟨es, et, e1, e2⟩ := exp h4
    have hr := List.length_pos_of_ne_nil h2
    have hdl : (ds.drop 1).length = r.length := by rw [List.length_drop]; omega
    refine ⟨[c], '.' :: r, 'e' :: x, [d], ds.drop 1, r.length + k, by simp, d1, by simp, .inr ⟨r, ⟨?_, d2⟩, rfl⟩,
      .inr ⟨es, et, e1, e2⟩, by simp, .inr ⟨by omega, by rw [List.singleton_append, ← d3], by omega⟩⟩
    intro h
    rw [h] at hdl
    simp at hdl
    omega

/-- The text of a number is one of RFC 8259, and not that of an integer. -/
theorem shown_parts {d : Double} {s : Str} (h : Shown d s) : NumberText (.float s) s ∧
    (s.head? = some '-' ↔ d.neg = true) ∧
    ∃ (i f : List Nat) (x : Int), NumberParts s i f x ∧
      ((d.mant = 0 ∧ numeral 10 (i ++ f) = 0 ∧ x - f.length = -1) ∨ d.mant ≠ 0 ∧ ∃ (D : Nat) (k : Int) (n : Nat),
        Shortest d.mant d.exp D k ∧ D ≠ 0 ∧ 10 ^ n ≤ D * 10 ∧ D < 10 ^ n ∧
        ((0 ≤ k ∧ n + k ≤ 16 ∧ numeral 10 (i ++ f) = D * 10 ^ (k.toNat + 1) ∧ x - f.length = -1) ∨
        ((k < 0 ∨ 16 < n + k) ∧ numeral 10 (i ++ f) = D ∧ x - f.length = k))) := by
  obtain ⟨t, rfl, h⟩ := h
  have build : ∀ {si sf se : Str} {i f : List Nat} {x : Int}, DigitsText i si → (i.head? = some 0 → i = [0]) →
      ((sf = [] ∧ f = []) ∨ ∃ t, DigitsText f t ∧ sf = '.' :: t) →
      ((se = [] ∧ x = 0) ∨ ∃ ds t, DigitsText ds t ∧
        ((se = 'e' :: t ∧ x = numeral 10 ds) ∨ (se = 'e' :: '-' :: t ∧ x = -(numeral 10 ds : Int)))) →
      sf ++ se ≠ [] →
      let s := (if d.neg then ['-'] else []) ++ (si ++ sf ++ se)
      NumberText (.float s) s ∧ (s.head? = some '-' ↔ d.neg = true) ∧ NumberParts s i f x := by
    intro si sf se i f x hi hz hf hx hne
    simp only
    have hsi : IntText (numeral 10 i) si := ⟨i, hi, hz, rfl⟩
    have hsf : FracText sf := by
      rcases hf with ⟨rfl, -⟩ | ⟨t, ht, rfl⟩
      · exact .inl rfl
      · exact .inr ⟨_, _, ht, rfl⟩
    have hse : ExpText se := by
      rcases hx with ⟨rfl, -⟩ | ⟨ds, t, ht, ⟨rfl, -⟩ | ⟨rfl, -⟩⟩
      · exact .inl rfl
      · exact .inr ⟨_, _, ht, 'e', by simp, [], by simp, rfl⟩
      · exact .inr ⟨_, _, ht, 'e', by simp, ['-'], by simp, rfl⟩
    refine ⟨?_, ?_, (if d.neg then ['-'] else []), si, sf, se, ?_, by simp, hi, hf, ?_⟩
    · have := NumberText.otherwise d.neg _ si sf se hsi hsf hse fun h => absurd h hne
      simpa only [List.append_assoc] using this
    · obtain ⟨h1, h2, -⟩ := digitsText_iff.1 hi
      cases d.neg with
      | true => simp
      | false =>
        cases si with
        | nil => exact absurd rfl h1
        | cons c si =>
          have := h2 c (by simp)
          simp only [Bool.false_eq_true, if_false, List.nil_append, List.cons_append, List.head?_cons, iff_false,
            Option.some.injEq]
          rintro rfl
          exact absurd this (by decide)
    · cases d.neg <;> simp
    · rcases hx with h | ⟨ds, t, ht, h | h⟩
      · exact .inl h
      · exact .inr ⟨ds, t, ht, 'e', by simp, .inl h⟩
      · exact .inr ⟨ds, t, ht, 'e', by simp, .inr (.inr h)⟩
  rcases h with ⟨hm, rfl⟩ | ⟨hm, D, k, ds, u, hs, hu, h0, rfl, hl⟩
  · obtain ⟨b1, b2, b3⟩ := build (si := ['0']) (sf := str! ".0") (se := []) (i := [0]) (f := [0]) (x := 0)
      digit_zero (by simp) (.inr ⟨_, digit_zero, rfl⟩) (.inl ⟨rfl, rfl⟩) (by simp)
    exact ⟨b1, b2, _, _, _, b3, .inl ⟨hm, by decide, by simp⟩⟩
  · obtain ⟨si, sf, se, i, f, x, rfl, p1, p2, p3, p4, p5, p6⟩ := laid_parts hu h0 hl
    obtain ⟨b1, b2, b3⟩ := build p1 p2 p3 p4 p5
    refine ⟨b1, b2, i, f, x, b3, .inr ⟨hm, _, k, ds.length, hs, shortest_ne_zero hm hs, ?_, ?_, p6⟩⟩
    · cases ds with
      | nil => exact absurd rfl hu.1
      | cons c ds =>
        have hc : c ≠ 0 := fun hc => h0 (by rw [hc]; rfl)
        rw [← List.singleton_append, numeral_split, List.length_append, List.length_singleton, Nat.pow_add]
        have h2 : numeral 10 [c] = c := by simp [numeral]
        rw [h2]
        have : 1 * 10 ^ ds.length ≤ c * 10 ^ ds.length := Nat.mul_le_mul_right _ (by omega)
        omega
    · apply numeral_lt
      obtain ⟨-, h2, rfl⟩ := digitsText_iff.1 hu
      intro d hd
      obtain ⟨c, hc, rfl⟩ := List.mem_map.1 hd
      exact (ofNat_digit (h2 c hc)).2

/-- The text denotes a number that is rounded to the double. -/
theorem shown_rounds {d : Double} (hd : IsDouble d.mant d.exp) {s : Str} (h : Shown d s) :
    ∃ i f x, NumberParts s i f x ∧ RoundsTo ((numeral 10 (i ++ f) : ℚ) * 10 ^ (x - f.length : Int)) d.mant d.exp := by
  obtain ⟨-, -, i, f, x, hp, h⟩ := shown_parts h
  refine ⟨i, f, x, hp, ?_⟩
  rcases h with ⟨hm, h0, -⟩ | ⟨hm, D, k, n, hs, -, -, -, h⟩
  · rw [h0, Nat.cast_zero, zero_mul]
    have := roundsTo_self hd
    rw [value, hm, Nat.cast_zero, zero_mul] at this
    rw [hm]
    exact this
  · have : (numeral 10 (i ++ f) : ℚ) * 10 ^ (x - f.length : Int) = D * 10 ^ k := by
      rcases h with ⟨hk, -, h1, h2⟩ | ⟨-, h1, h2⟩
      · rw [h1, h2]
        push_cast
        have : (10 : ℚ) ^ k = 10 ^ k.toNat := by
          rw [← zpow_natCast]; congr 1; omega
        rw [this, pow_succ, zpow_neg_one]
        field_simp
      · rw [h1, h2]
    rw [this]
    exact hs.1

/-- Different doubles have different texts. -/
theorem shown_injective {d d' : Double} (hd : IsDouble d.mant d.exp) (hd' : IsDouble d'.mant d'.exp) {s : Str}
    (h : Shown d s) (h' : Shown d' s) : d = d' := by
  obtain ⟨i, f, x, p, r⟩ := shown_rounds hd h
  obtain ⟨i', f', x', p', r'⟩ := shown_rounds hd' h'
  obtain ⟨rfl, rfl, rfl⟩ := parts_unique p p'
  obtain ⟨e1, e2⟩ := roundsTo_unique (mul_nonneg (Nat.cast_nonneg _) (pow10_pos _).le) r r'
  have n := (shown_parts h).2.1
  have n' := (shown_parts h').2.1
  obtain ⟨neg, m, e⟩ := d
  obtain ⟨neg', m', e'⟩ := d'
  simp only at e1 e2 n n'
  have : neg = neg' := by
    rw [n] at n'
    cases neg <;> cases neg' <;> simp at n' ⊢
  rw [this, e1, e2]

end Json
end Oid4vci
