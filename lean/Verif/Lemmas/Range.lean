import Verif.Lemmas.Double

/-! Reading numbers: the computation of serde_json and its specification. -/

namespace Oid4vci
namespace Json

open Spec

/-! ### Digits -/

theorem mem_digits {c : Char} {d : Nat} : (c, d) ∈ digits ↔ isDigit c = true ∧ c.toNat - 48 = d := by
  constructor
  · intro h
    simp only [digits, List.mem_cons, Prod.mk.injEq, List.not_mem_nil, or_false] at h
    rcases h with ⟨rfl, rfl⟩ | ⟨rfl, rfl⟩ | ⟨rfl, rfl⟩ | ⟨rfl, rfl⟩ | ⟨rfl, rfl⟩ | ⟨rfl, rfl⟩ | ⟨rfl, rfl⟩
      | ⟨rfl, rfl⟩ | ⟨rfl, rfl⟩ | ⟨rfl, rfl⟩ <;> decide
  · rintro ⟨h, rfl⟩
    have hc : ∀ n : Fin 128, isDigit (Char.ofNat n.1) = true →
        (Char.ofNat n.1, (Char.ofNat n.1).toNat - 48) ∈ digits := by decide +kernel
    have hlt : c.toNat < 128 := by simp [isDigit] at h; omega
    have := hc ⟨c.toNat, hlt⟩
    simp only [Char.ofNat_toNat] at this
    exact this h

theorem written_digits {ds : List Nat} {s : Str} :
    Written digits ds s ↔ (∀ c ∈ s, isDigit c = true) ∧ ds = s.map (fun c => c.toNat - 48) := by
  constructor
  · rintro ⟨ps, hp, rfl, rfl⟩
    refine ⟨?_, ?_⟩
    · intro c hc
      obtain ⟨p, hpm, rfl⟩ := List.mem_map.1 hc
      exact (mem_digits.1 (hp p hpm)).1
    · rw [List.map_map]
      exact List.map_congr_left fun p hpm => (mem_digits.1 (hp p hpm)).2.symm
  · rintro ⟨h, rfl⟩
    refine ⟨s.map fun c => (c, c.toNat - 48), ?_, ?_, ?_⟩
    · intro p hp
      obtain ⟨c, hc, rfl⟩ := List.mem_map.1 hp
      exact mem_digits.2 ⟨h c hc, rfl⟩
    · simp [List.map_map, Function.comp_def]
    · simp [List.map_map, Function.comp_def]

theorem digitsVal_numeral (s : Str) : digitsVal s = numeral 10 (s.map fun c => c.toNat - 48) := by
  simp [digitsVal, numeral, List.foldl_map]

theorem digitsText_iff {ds : List Nat} {s : Str} : DigitsText ds s ↔
    s ≠ [] ∧ (∀ c ∈ s, isDigit c = true) ∧ ds = s.map (fun c => c.toNat - 48) := by
  unfold DigitsText
  rw [written_digits]
  constructor
  · rintro ⟨h1, h2, rfl⟩; exact ⟨by simpa using h1, h2, rfl⟩
  · rintro ⟨h1, h2, rfl⟩; exact ⟨by simpa using h1, h2, rfl⟩

/-- A rest whose first character is no digit. -/
def NoDigit (s : Str) : Prop := ∀ c ∈ s.head?, isDigit c = false

theorem takeWhile_digits' (ds rest : Str) (h : ∀ c ∈ ds, isDigit c = true) (hr : NoDigit rest) :
    (ds ++ rest).takeWhile isDigit = ds ∧ (ds ++ rest).dropWhile isDigit = rest := by
  have hrest : rest.takeWhile isDigit = [] ∧ rest.dropWhile isDigit = rest := by
    cases rest with
    | nil => simp
    | cons c r => simp [hr c (by simp)]
  constructor
  · rw [List.takeWhile_append_of_pos h, hrest.1, List.append_nil]
  · rw [List.dropWhile_append_of_pos h, hrest.2]

/-! ### The significand -/

theorem numeral_append (pre ds : List Nat) : numeral 10 (pre ++ ds) = ds.foldl (fun a d => a * 10 + d) (numeral 10 pre) := by
  simp [numeral, List.foldl_append]

theorem numeral_snoc (pre : List Nat) (d : Nat) : numeral 10 (pre ++ [d]) = numeral 10 pre * 10 + d := by
  simp [numeral_append]

theorem numeral_split (a b : List Nat) : numeral 10 (a ++ b) = numeral 10 a * 10 ^ b.length + numeral 10 b := by
  induction b using List.reverseRecOn with
  | nil => simp [numeral]
  | append_singleton b d ih =>
    rw [← List.append_assoc, numeral_snoc, ih, numeral_snoc, List.length_append, List.length_singleton, Nat.pow_succ]
    ring

theorem numeral_lt (b : List Nat) (h : ∀ d ∈ b, d < 10) : numeral 10 b < 10 ^ b.length := by
  induction b using List.reverseRecOn with
  | nil => simp [numeral]
  | append_singleton b d ih =>
    rw [numeral_snoc, List.length_append, List.length_singleton, Nat.pow_succ]
    have h1 := ih fun d hd => h d (by simp [hd])
    have h2 := h d (by simp)
    omega

theorem accumulate_longest (s : Str) : ∀ (pre : List Nat), numeral 10 pre < 2 ^ 64 →
    Longest pre (s.map fun c => c.toNat - 48) (accumulate (numeral 10 pre) s).2 ∧
    (accumulate (numeral 10 pre) s).1 =
      numeral 10 (pre ++ (s.map fun c => c.toNat - 48).take (accumulate (numeral 10 pre) s).2) := by
  induction s with
  | nil => intro pre h; exact ⟨⟨by simp [accumulate], by simpa using h, by simp [accumulate]⟩, by simp [accumulate]⟩
  | cons c s ih =>
    intro pre h
    have hs : numeral 10 pre * 10 + (c.toNat - 48) = numeral 10 (pre ++ [c.toNat - 48]) :=
      (numeral_snoc _ _).symm
    rw [accumulate]
    simp only [hs]
    split
    · rename_i hlt
      obtain ⟨⟨h1, h2, h3⟩, h4⟩ := ih _ hlt
      refine ⟨⟨?_, ?_, ?_⟩, ?_⟩
      · simp only [List.map_cons, List.length_cons]; omega
      · simpa using h2
      · intro hl
        have := h3 (by simpa using hl)
        simpa using this
      · simpa using h4
    · rename_i hlt
      refine ⟨⟨by simp, by simpa using h, ?_⟩, by simp⟩
      intro _
      simp only [Nat.zero_add, List.map_cons, List.take_succ_cons, List.take_zero]
      omega

theorem numeral_le_append (pre ds : List Nat) : numeral 10 pre ≤ numeral 10 (pre ++ ds) := by
  rw [numeral_append]
  generalize numeral 10 pre = n
  induction ds generalizing n with
  | nil => simp
  | cons d ds ih =>
    rw [List.foldl_cons]
    have := ih (n * 10 + d)
    omega

theorem numeral_take_mono (pre ds : List Nat) {k l : Nat} (h : k ≤ l) :
    numeral 10 (pre ++ ds.take k) ≤ numeral 10 (pre ++ ds.take l) := by
  have : ds.take l = ds.take k ++ (ds.take l).drop k := by
    conv_lhs => rw [← List.take_append_drop k (ds.take l)]
    rw [List.take_take, Nat.min_eq_left h]
  rw [this, ← List.append_assoc]
  exact numeral_le_append _ _

theorem longest_unique {pre ds : List Nat} {k l : Nat} (hk : Longest pre ds k) (hl : Longest pre ds l) :
    k = l := by
  obtain ⟨k1, k2, k3⟩ := hk
  obtain ⟨l1, l2, l3⟩ := hl
  rcases Nat.lt_trichotomy k l with h | h | h
  · have := k3 (by omega)
    have := numeral_take_mono pre ds (show k + 1 ≤ l from h)
    omega
  · exact h
  · have := l3 (by omega)
    have := numeral_take_mono pre ds (show l + 1 ≤ k from h)
    omega

/-! ### Scaling -/

theorem isDouble_nearest {n : Nat} {m : Nat} {e : Int} (h : nearest n 1 = (m, e)) (he : e ≤ 971) : IsDouble m e :=
  (roundsTo_natCast.2 ⟨h, he⟩).2.1

set_option exponentiation.threshold 400 in
theorem pow10_fits {k : Nat} (hk : k ≤ 308) : ((10 ^ k : Nat) : ℚ) < tooLarge := by
  have h : 10 ^ 308 < tooLarge := by decide +kernel
  exact_mod_cast (Nat.pow_le_pow_right (by norm_num) hk).trans_lt h

theorem sig_fits {n : Nat} (h : n < 2 ^ 64) : (n : ℚ) < tooLarge := by
  have h' : 2 ^ 64 < tooLarge := by decide +kernel
  exact_mod_cast h.trans h'

theorem nearest_rounds {n : Nat} (h : (n : ℚ) < tooLarge) : RoundsTo n (nearest n 1).1 (nearest n 1).2 := by
  obtain ⟨m, e, hr⟩ := roundsTo_exists (Nat.cast_nonneg n) h
  have := (roundsTo_natCast.1 hr).1
  rw [this]
  exact hr

theorem tiny_le_one : (2 : ℚ) ^ (-1022 : Int) ≤ 1 := zpow_le_one_of_nonpos₀ (by norm_num) (by norm_num)

theorem tiny_le_nat {n : Nat} (h : n ≠ 0) : (2 : ℚ) ^ (-1022 : Int) ≤ n :=
  tiny_le_one.trans (by exact_mod_cast Nat.one_le_iff_ne_zero.2 h)

/-- Rounding of a natural number: at most one part in `2^53` is lost. -/
theorem nat_error {n m : Nat} {e : Int} (h : RoundsTo n m e) :
    value m e * 2 ^ 53 ≤ n * (2 ^ 53 + 1) ∧ (n : ℚ) * (2 ^ 53 - 1) ≤ value m e * 2 ^ 53 := by
  by_cases hn : n = 0
  · subst hn
    have := (roundsTo_natCast.1 h).1
    simp only [nearest, if_true, Prod.mk.injEq] at this
    obtain ⟨rfl, rfl⟩ := this
    simp [value]
  · have := abs_le.1 (roundsTo_error h (tiny_le_nat hn))
    have e : (2 : ℚ) ^ (-53 : Int) * 2 ^ 53 = 1 := by norm_num
    constructor <;> nlinarith

theorem pow_value {k : Nat} {p : Nat} {pe : Int} (hk : 0 < k) (h : RoundsTo ((10 ^ k : Nat) : ℚ) p pe) :
    1 ≤ value p pe ∧ 0 < p := by
  have h1 := (nat_error h).2
  have h2 : ((10 : Nat) : ℚ) ≤ (10 ^ k : Nat) := by
    exact_mod_cast (show 10 ≤ 10 ^ k by
      calc 10 = 10 ^ 1 := rfl
        _ ≤ 10 ^ k := Nat.pow_le_pow_right (by norm_num) hk)
  have h3 : 1 ≤ value p pe := by
    have : ((10 : Nat) : ℚ) * (2 ^ 53 - 1) ≤ value p pe * 2 ^ 53 := by
      refine le_trans ?_ h1
      exact mul_le_mul_of_nonneg_right h2 (by norm_num)
    push_cast at this
    linarith
  refine ⟨h3, Nat.pos_of_ne_zero ?_⟩
  rintro rfl
  simp [value] at h3
  linarith

theorem divide_step {m0 : Nat} {e0 : Int} (h0 : IsDouble m0 e0) {k : Nat} (hk : 0 < k) (hk' : k ≤ 308) :
    let p := nearest (10 ^ k) 1
    let f := rounded m0 p.1 (e0 - p.2)
    RoundsTo ((10 : ℚ) ^ k) p.1 p.2 ∧ RoundsTo (value m0 e0 / value p.1 p.2) f.1 f.2 := by
  intro p f
  have hp : RoundsTo ((10 ^ k : Nat) : ℚ) p.1 p.2 := nearest_rounds (pow10_fits hk')
  obtain ⟨h1, h2⟩ := pow_value hk hp
  have hval : (m0 : ℚ) / p.1 * 2 ^ (e0 - p.2) = value m0 e0 / value p.1 p.2 := by
    unfold value
    rw [zpow_sub₀ (by norm_num), div_mul_div_comm]
  refine ⟨by simpa using hp, ?_⟩
  obtain ⟨m, e, hr⟩ := roundsTo_exists (q := value m0 e0 / value p.1 p.2)
    (div_nonneg (value_nonneg _ _) (value_nonneg _ _))
    ((div_le_self (value_nonneg _ _) h1).trans_lt (roundsTo_self h0).1)
  have hf : f = (m, e) := by
    rw [← hval] at hr
    exact ((rounded_iff h2).1 hr).1
  rw [hf]
  exact hr

theorem div_nonneg_value (m p : Nat) (e pe : Int) : 0 ≤ value m e / value p pe :=
  div_nonneg (value_nonneg _ _) (value_nonneg _ _)

set_option exponentiation.threshold 400 in
theorem divide_iff (fuel : Nat) : ∀ {m0 : Nat} {e0 : Int}, IsDouble m0 e0 → ∀ {k : Nat}, 0 < k → k / 308 < fuel →
    ∀ {m e}, Scaled (value m0 e0) (-(k : Int)) m e ↔ divide fuel (m0, e0) k = (m, e) := by
  induction fuel with
  | zero => intro m0 e0 h0 k hk hf; omega
  | succ fuel ih =>
    intro m0 e0 h0 k hk hf m e
    rw [divide]
    simp only
    by_cases hle : k ≤ 308
    · have hmin : min k 308 = k := by omega
      simp only [hmin, hle, if_true]
      obtain ⟨s1, s2⟩ := divide_step h0 hk hle
      generalize nearest (10 ^ k) 1 = p at *
      generalize rounded m0 p.1 (e0 - p.2) = f at *
      obtain ⟨fm, fe⟩ := f
      constructor
      · intro h
        generalize hx : value m0 e0 = x at *
        generalize hK : -(k : Int) = K at h
        cases h with
        | up _ k' => omega
        | zero k' => omega
        | down _ k' p' pe' _ _ h1 h2 h3 h4 =>
          obtain rfl : k' = k := by omega
          obtain ⟨e1, e2⟩ := roundsTo_unique (by positivity) s1 h3
          rw [e1, e2] at s2
          have hx0 : 0 ≤ x := hx ▸ value_nonneg _ _
          obtain ⟨rfl, rfl⟩ := roundsTo_unique (div_nonneg hx0 (value_nonneg _ _)) s2 h4
          rfl
        | far _ k' => omega
      · intro h
        cases h
        exact .down _ _ _ _ _ _ hk hle s1 s2
    · have hmin : min k 308 = 308 := by omega
      simp only [hmin, hle, if_false]
      obtain ⟨s1, s2⟩ := divide_step h0 (k := 308) (by norm_num) le_rfl
      generalize nearest (10 ^ 308) 1 = p at *
      generalize rounded m0 p.1 (e0 - p.2) = f at *
      obtain ⟨fm, fe⟩ := f
      have hrec := ih s2.2.1 (k := k - 308) (by omega) (by omega) (m := m) (e := e)
      have hcast : -((k - 308 : Nat) : Int) = -((k : Int) - 308) := by omega
      rw [hcast] at hrec
      constructor
      · intro h
        generalize hx : value m0 e0 = x at *
        generalize hK : -(k : Int) = K at h
        cases h with
        | up _ k' => omega
        | zero k' => omega
        | down _ k' => omega
        | far _ k' p' pe' m1 e1 _ _ h1 h2 h3 h4 =>
          obtain rfl : k' = k := by omega
          obtain ⟨e1, e2⟩ := roundsTo_unique (zpow_nonneg (by norm_num) 308) s1 h2
          rw [e1, e2] at s2
          have hx0 : 0 ≤ x := hx ▸ value_nonneg _ _
          obtain ⟨rfl, rfl⟩ := roundsTo_unique (div_nonneg hx0 (value_nonneg _ _)) s2 h3
          exact hrec.1 h4
      · intro h
        exact .far _ _ _ _ _ _ _ _ (by omega) s1 s2 (hrec.2 h)

theorem fromParts_iff {sig : Nat} (hs : sig < 2 ^ 64) {x : Int} {m : Nat} {e : Int} :
    fromParts sig x = some (m, e) ↔ ∃ m0 e0, RoundsTo sig m0 e0 ∧ Scaled (value m0 e0) x m e := by
  have hf := nearest_rounds (sig_fits hs)
  have huniq : (∃ m0 e0, RoundsTo sig m0 e0 ∧ Scaled (value m0 e0) x m e) ↔
      Scaled (value (nearest sig 1).1 (nearest sig 1).2) x m e := by
    constructor
    · rintro ⟨m0, e0, h1, h2⟩
      obtain ⟨rfl, rfl⟩ := roundsTo_unique (Nat.cast_nonneg _) h1 hf
      exact h2
    · exact fun h => ⟨_, _, hf, h⟩
  rw [huniq]
  unfold fromParts
  simp only
  have hpos : sig ≠ 0 → value (nearest sig 1).1 (nearest sig 1).2 ≠ 0 := by
    intro h0 hv
    have := (nat_error hf).2
    rw [hv] at this
    have : (1 : ℚ) ≤ sig := by exact_mod_cast Nat.one_le_iff_ne_zero.2 h0
    linarith
  have hzero : sig = 0 → nearest sig 1 = (0, -1074) := by rintro rfl; rfl
  generalize hg : nearest sig 1 = f at *
  obtain ⟨fm, fe⟩ := f
  simp only at hf hpos ⊢
  by_cases hx : x < 0
  · rw [if_pos hx]
    obtain ⟨k, rfl⟩ : ∃ k : Nat, x = -(k : Int) := ⟨(-x).toNat, by omega⟩
    have hk : (-(-(k : Int))).toNat = k := by omega
    rw [hk, divide_iff (k / 308 + 1) hf.2.1 (by omega) (by omega)]
    simp
  · rw [if_neg hx]
    obtain ⟨k, rfl⟩ := Int.eq_ofNat_of_zero_le (not_lt.1 hx)
    have hup : k ≤ 308 → (Scaled (value fm fe) k m e ↔
        RoundsTo (value fm fe * value (nearest (10 ^ k) 1).1 (nearest (10 ^ k) 1).2) m e) := by
      intro hk
      have hp : RoundsTo ((10 ^ k : Nat) : ℚ) (nearest (10 ^ k) 1).1 (nearest (10 ^ k) 1).2 :=
        nearest_rounds (pow10_fits hk)
      rw [Nat.cast_pow] at hp
      constructor
      · intro h
        generalize hy : value fm fe = y at *
        generalize hK : (k : Int) = K at h
        cases h with
        | up _ k' p pe _ _ h1 h2 h3 =>
          obtain rfl : k = k' := by omega
          obtain ⟨e1, e2⟩ := roundsTo_unique (by positivity) h2 hp
          rw [e1, e2] at h3
          exact h3
        | zero k' => omega
        | down _ k' => omega
        | far _ k' => omega
      · exact fun h => .up _ _ _ _ _ _ hk hp h
    by_cases h0 : sig = 0
    · rw [if_pos h0]
      have hfz := hzero h0
      cases hfz
      have hv : value 0 (-1074) = 0 := by simp [value]
      by_cases hk : k ≤ 308
      · rw [hup hk, hv, zero_mul]
        have := @roundsTo_natCast 0 m e
        rw [Nat.cast_zero] at this
        rw [this]
        simp only [nearest, if_true, Option.some.injEq, Prod.mk.injEq]
        constructor
        · rintro ⟨rfl, rfl⟩; exact ⟨⟨rfl, rfl⟩, by norm_num⟩
        · exact fun h => h.1
      · rw [hv]
        constructor
        · intro h; cases h; exact .zero _ (by omega)
        · intro h
          generalize hK : ((k : Nat) : Int) = K at h
          generalize hy : (0 : ℚ) = y at h
          cases h with
          | up _ k' => omega
          | zero k' => rfl
          | down _ k' => omega
          | far _ k' => omega
    · rw [if_neg h0]
      by_cases hk : k ≤ 308
      · rw [if_pos (by omega), hup hk, Int.toNat_natCast]
        generalize nearest (10 ^ k) 1 = p
        have hval : ((fm * p.1 : Nat) : ℚ) / (1 : Nat) * 2 ^ (fe + p.2) = value fm fe * value p.1 p.2 := by
          unfold value
          rw [pow2_add]
          push_cast
          ring
        rw [← hval, rounded_iff Nat.one_pos]
        generalize rounded (fm * p.1) 1 (fe + p.2) = d
        obtain ⟨dm, de⟩ := d
        simp only
        split
        · rename_i hd
          simp only [Option.some.injEq, Prod.mk.injEq]
          constructor
          · rintro ⟨rfl, rfl⟩; exact ⟨⟨rfl, rfl⟩, hd⟩
          · exact fun h => h.1
        · rename_i hd
          simp only [reduceCtorEq, Prod.mk.injEq, false_iff]
          rintro ⟨⟨rfl, rfl⟩, h⟩
          exact hd h
      · rw [if_neg (by omega)]
        simp only [reduceCtorEq, false_iff]
        intro h
        have hne := hpos h0
        generalize hK : ((k : Nat) : Int) = K at h
        generalize hy : value fm fe = y at *
        cases h with
        | up _ k' => omega
        | zero k' => exact hne rfl
        | down _ k' => omega
        | far _ k' => omega

/-! ### Texts -/

/-- The condition of `ReadAs` on the parts of a number. -/
def PartsReadAs (i f : List Nat) (x : Int) (m' : Nat) (e' : Int) : Prop :=
  ∃ k l, Longest [] i k ∧ Longest (i.take k) f l ∧
    ∃ m e, RoundsTo (numeral 10 (i.take k ++ f.take l)) m e ∧
      Scaled (value m e) (x + (i.length - k : Nat) - l) m' e'

theorem exponent_parts {se : Str} {x : Int} (h : (se = [] ∧ x = 0) ∨ ∃ ds t, DigitsText ds t ∧ ∃ c ∈ ['e', 'E'],
      (se = c :: t ∧ x = numeral 10 ds) ∨ (se = c :: '+' :: t ∧ x = numeral 10 ds) ∨
      (se = c :: '-' :: t ∧ x = -(numeral 10 ds : Int))) :
    exponent se = x ∧ NoDigit se ∧ se.head? ≠ some '.' := by
  rcases h with ⟨rfl, rfl⟩ | ⟨ds, t, hd, c, hc, h⟩
  · exact ⟨rfl, by intro c hc; simp at hc, by simp⟩
  · obtain ⟨h1, h2, rfl⟩ := digitsText_iff.1 hd
    have hcc : isDigit c = false ∧ c ≠ '.' := by
      simp only [List.mem_cons, List.not_mem_nil, or_false] at hc
      rcases hc with rfl | rfl <;> decide
    have hh : ∀ u : Str, NoDigit (c :: u) ∧ (c :: u).head? ≠ some '.' := by
      intro u
      refine ⟨?_, by simpa using hcc.2⟩
      intro y hy
      simp at hy
      rw [← hy]
      exact hcc.1
    rcases h with ⟨rfl, rfl⟩ | ⟨rfl, rfl⟩ | ⟨rfl, rfl⟩
    · refine ⟨?_, hh _⟩
      cases t with
      | nil => exact absurd rfl h1
      | cons d t =>
        have hdd := h2 d (by simp)
        have n1 : d ≠ '-' := by rintro rfl; exact absurd hdd (by decide)
        have n2 : d ≠ '+' := by rintro rfl; exact absurd hdd (by decide)
        simp only [exponent, n1, n2, if_false, digitsVal_numeral]
    · exact ⟨by simp [exponent, digitsVal_numeral], hh _⟩
    · exact ⟨by simp [exponent, digitsVal_numeral], hh _⟩

/-- How the parts are found in the text. -/
theorem number_split {s : Str} {i f : List Nat} {x : Int} (h : NumberParts s i f x) :
    let b := if s.head? = some '-' then s.tail else s
    let r := b.dropWhile isDigit
    (b.takeWhile isDigit).map (fun c => c.toNat - 48) = i ∧
    (if r.head? = some '.' then r.tail.takeWhile isDigit else []).map (fun c => c.toNat - 48) = f ∧
    exponent (if r.head? = some '.' then r.tail.dropWhile isDigit else r) = x := by
  obtain ⟨sign, si, sf, se, hsign, rfl, hi, hf, hx⟩ := h
  obtain ⟨i1, i2, rfl⟩ := digitsText_iff.1 hi
  obtain ⟨hxe, hxn, hxd⟩ := exponent_parts hx
  have hbody : (if (sign ++ si ++ sf ++ se).head? = some '-' then (sign ++ si ++ sf ++ se).tail
      else sign ++ si ++ sf ++ se) = si ++ (sf ++ se) := by
    simp only [List.mem_cons, List.not_mem_nil, or_false] at hsign
    rcases hsign with rfl | rfl
    · cases si with
      | nil => exact absurd rfl i1
      | cons c t =>
        have : c ≠ '-' := by rintro rfl; exact absurd (i2 '-' (by simp)) (by decide)
        simp [this]
    · simp
  have hnd : NoDigit (sf ++ se) := by
    rcases hf with ⟨rfl, -⟩ | ⟨t, -, rfl⟩
    · simpa using hxn
    · intro c hc; simp at hc; rw [← hc]; decide
  obtain ⟨t1, t2⟩ := takeWhile_digits' si (sf ++ se) i2 hnd
  simp only [hbody, t1, t2]
  rcases hf with ⟨rfl, rfl⟩ | ⟨t, ht, rfl⟩
  · simp only [List.nil_append, hxd, if_false]; exact ⟨trivial, rfl, hxe⟩
  · obtain ⟨f1, f2, rfl⟩ := digitsText_iff.1 ht
    obtain ⟨u1, u2⟩ := takeWhile_digits' t se f2 hxn
    simp only [List.cons_append, List.head?_cons, if_true, List.tail_cons, u1, u2]
    exact ⟨trivial, trivial, hxe⟩

theorem parts_unique {s : Str} {i f i' f' : List Nat} {x x' : Int} (h : NumberParts s i f x)
    (h' : NumberParts s i' f' x') : i = i' ∧ f = f' ∧ x = x' := by
  obtain ⟨h1, h2, h3⟩ := number_split h
  obtain ⟨h4, h5, h6⟩ := number_split h'
  exact ⟨h1.symm.trans h4, h2.symm.trans h5, h3.symm.trans h6⟩

theorem readFloat_parts {s : Str} {i f : List Nat} {x : Int} (h : NumberParts s i f x) {d : Double} :
    readFloat s = some d ↔ (d.neg = true ↔ s.head? = some '-') ∧ PartsReadAs i f x d.mant d.exp := by
  obtain ⟨hi, hf, hxe⟩ := number_split h
  unfold readFloat
  simp only [hxe]
  generalize (if s.head? = some '-' then s.tail else s) = b at *
  generalize hfs : (if (b.dropWhile isDigit).head? = some '.' then (b.dropWhile isDigit).tail.takeWhile isDigit
    else []) = fs at *
  generalize b.takeWhile isDigit = si at *
  have a := accumulate_longest si [] (by decide)
  simp only [List.nil_append] at a
  obtain ⟨a1, a2⟩ := a
  have e0 : numeral 10 [] = 0 := rfl
  rw [e0] at a1 a2
  rw [hi] at a1 a2
  have hlt : numeral 10 (i.take (accumulate 0 si).2) < 2 ^ 64 := by simpa using a1.2.1
  have b := accumulate_longest fs _ hlt
  rw [← a2] at b
  rw [hf] at b
  obtain ⟨b1, b2⟩ := b
  have hsig := b1.2.1
  rw [← b2] at hsig
  have hlen : si.length = i.length := by rw [← hi, List.length_map]
  have hiff : PartsReadAs i f x d.mant d.exp ↔
      fromParts (accumulate (accumulate 0 si).1 fs).1
        (x + (si.length - (accumulate 0 si).2 : Nat) - ((accumulate (accumulate 0 si).1 fs).2 : Int))
        = some (d.mant, d.exp) := by
    rw [fromParts_iff hsig, b2, hlen]
    constructor
    · rintro ⟨k, l, h1, h2, h⟩
      obtain rfl := longest_unique h1 a1
      obtain rfl := longest_unique h2 b1
      exact h
    · intro h
      exact ⟨_, _, a1, b1, h⟩
  rw [hiff]
  generalize fromParts _ _ = o
  generalize s.head? = hd
  obtain ⟨neg, m, e⟩ := d
  cases o with
  | none => simp
  | some p =>
    obtain ⟨m', e'⟩ := p
    by_cases hh : hd = some '-' <;> cases neg <;> simp [hh]

theorem readAs_iff {s : Str} {i f : List Nat} {x : Int} (h : NumberParts s i f x) {d : Double} :
    ReadAs s d ↔ readFloat s = some d := by
  constructor
  · rintro ⟨i', f', x', h', h1, h2⟩
    exact (readFloat_parts h').2 ⟨h1, h2⟩
  · intro hr
    obtain ⟨h1, h2⟩ := (readFloat_parts h).1 hr
    exact ⟨i, f, x, h, h1, h2⟩

end Json
end Oid4vci
