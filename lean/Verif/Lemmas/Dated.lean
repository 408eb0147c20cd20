import Verif.Lemmas.Instant
import Verif.Lemmas.Shortest
import Verif.Spec.Dated

/-! The date-time texts which are written. -/

namespace Oid4vci
namespace Chrono

open Spec

/-- Digit strings of the same length with the same value are the same. -/
theorem digits_inj {a b : Str} (ha : ∀ c ∈ a, Json.isDigit c = true) (hb : ∀ c ∈ b, Json.isDigit c = true)
    (hl : a.length = b.length) (hv : decimal a = decimal b) : a = b := by
  induction a using List.reverseRecOn generalizing b with
  | nil => exact (List.length_eq_zero_iff.1 hl.symm).symm
  | append_singleton a c ih =>
    rcases List.eq_nil_or_concat b with rfl | ⟨b, d, rfl⟩
    · simp at hl
    · rw [List.concat_eq_append] at hb hl hv ⊢
      simp only [decimal, List.foldl_append, List.foldl_cons, List.foldl_nil] at hv
      have hc := ha c (by simp)
      have hd := hb d (by simp)
      simp only [Json.isDigit, Bool.and_eq_true, decide_eq_true_eq] at hc hd
      have h0 : '0'.toNat = 48 := rfl
      simp only [h0] at hv
      have h1 : a = b := ih (fun c hc => ha c (by simp [hc])) (fun c hc => hb c (by simp [hc]))
        (by simpa using hl) (by show List.foldl _ _ _ = List.foldl _ _ _; simp only [h0]; omega)
      have h2 : c.toNat = d.toNat := by subst h1; omega
      rw [h1, ← Char.ofNat_toNat c, h2, Char.ofNat_toNat d]

theorem fixed_digits {w n : Nat} (hw : 0 < w) (hn : n < 10 ^ w) :
    IsDigits (fixed w n) ∧ (fixed w n).length = w ∧ decimal (fixed w n) = n := by
  obtain ⟨f1, f2, f3⟩ := fixed_spec w n
  exact ⟨(isDigits_iff _).2 ⟨fixed_ne w n hw, f1⟩, f2,
    by rw [← val_eq_decimal, f3, Nat.mod_eq_of_lt hn]; omega⟩

theorem fixed_decimal {ds : Str} (h : IsDigits ds) {w : Nat} (hl : ds.length = w) : fixed w (decimal ds) = ds := by
  obtain ⟨h0, h1⟩ := (isDigits_iff _).1 h
  have hw : 0 < w := by rw [← hl]; exact List.length_pos_iff.2 h0
  have hn : decimal ds < 10 ^ w := by rw [← hl]; exact decimal_lt ds h1
  obtain ⟨f1, f2, f3⟩ := fixed_digits hw hn
  exact digits_inj ((isDigits_iff _).1 f1).2 h1 (by omega) f3

theorem decimal_digitsVal (ds : Str) : decimal ds = Json.digitsVal ds := (val_eq_decimal ds).symm

theorem natDigits_decimal {ds : Str} (h : IsDigits ds) (h0 : ds.head? ≠ some '0') :
    Json.natDigits (decimal ds) = ds := by
  obtain ⟨h1, h2⟩ := (isDigits_iff _).1 h
  rw [decimal_digitsVal]
  exact Json.natDigits_digitsVal h2 h1 fun h => absurd h h0

/-- A digit string without leading zero is at least a power of ten. -/
theorem le_decimal {ds : Str} (h : IsDigits ds) (h0 : ds.head? ≠ some '0') : 10 ^ (ds.length - 1) ≤ decimal ds := by
  obtain ⟨h1, h2⟩ := (isDigits_iff _).1 h
  cases ds with
  | nil => exact absurd rfl h1
  | cons c ds =>
    have hc := h2 c (by simp)
    simp only [Json.isDigit, Bool.and_eq_true, decide_eq_true_eq] at hc
    have hc' : c.toNat ≠ 48 := by
      intro h
      apply h0
      have := Char.ofNat_toNat c
      rw [h] at this
      rw [← this]; rfl
    have : ∀ (l : Str) (a : Nat), a * 10 ^ l.length ≤ val a l := by
      intro l
      induction l with
      | nil => intro a; simp [val]
      | cons d l ih =>
        intro a
        have := ih (a * 10 + (d.toNat - 48))
        simp only [val, List.foldl_cons, List.length_cons] at this ⊢
        refine le_trans ?_ this
        rw [Nat.pow_succ, Nat.mul_comm (10 ^ l.length), ← Nat.mul_assoc]
        exact Nat.mul_le_mul_right _ (by omega)
    have h := this ds (0 * 10 + (c.toNat - 48))
    rw [← val_eq_decimal]
    simp only [val, List.foldl_cons, List.length_cons] at h ⊢
    refine le_trans ?_ h
    simp only [Nat.add_sub_cancel]
    exact Nat.le_mul_of_pos_left _ (by omega)

theorem natDigits_digits {n : Nat} (hn : 10000 ≤ n) : IsDigits (Json.natDigits n) ∧
    5 ≤ (Json.natDigits n).length ∧ (Json.natDigits n).head? ≠ some '0' ∧ decimal (Json.natDigits n) = n := by
  obtain ⟨h1, h2, h3, h4, -⟩ := Json.natDigits_props n
  have hv : decimal (Json.natDigits n) = n := by rw [decimal_digitsVal, h2]
  refine ⟨(isDigits_iff _).2 ⟨h3, h1⟩, ?_, h4 (by omega), hv⟩
  have := decimal_lt _ h1
  rw [hv] at this
  by_contra hlt
  have : 10 ^ (Json.natDigits n).length ≤ 10 ^ 4 := Nat.pow_le_pow_right (by omega) (by omega)
  omega

/-- Years are written so and not otherwise. -/
theorem showYear_iff (s : Str) (y : Int) : showYear y = s ↔ WrittenYear s y := by
  constructor
  · rintro rfl
    unfold showYear
    split
    · rename_i h
      obtain ⟨f1, f2, f3⟩ := fixed_digits (w := 4) (n := y.toNat) (by omega) (by omega)
      have := WrittenYear.plain _ f1 f2
      rwa [f3, Int.toNat_of_nonneg h.1] at this
    · rename_i h
      split
      · rename_i hy
        split
        · obtain ⟨f1, f2, f3⟩ := fixed_digits (w := 4) (n := y.natAbs) (by omega) (by omega)
          have := WrittenYear.earlier _ f1 (by omega) (.inl f2)
          rwa [f3, show -(y.natAbs : Int) = y by omega] at this
        · obtain ⟨f1, f2, f3, f4⟩ := natDigits_digits (n := y.natAbs) (by omega)
          have := WrittenYear.earlier _ f1 (by omega) (.inr ⟨f2, f3⟩)
          rwa [f4, show -(y.natAbs : Int) = y by omega] at this
      · rw [if_neg (by omega)]
        obtain ⟨f1, f2, f3, f4⟩ := natDigits_digits (n := y.natAbs) (by omega)
        have := WrittenYear.later _ f1 f2 f3
        rwa [f4, show (y.natAbs : Int) = y by omega] at this
  · intro h
    have big : ∀ ds, IsDigits ds → 5 ≤ ds.length → ds.head? ≠ some '0' → 10000 ≤ decimal ds := by
      intro ds h1 h2 h3
      refine le_trans ?_ (le_decimal h1 h3)
      exact le_trans (by norm_num) (Nat.pow_le_pow_right (n := 10) (by omega) (show 4 ≤ ds.length - 1 by omega))
    have small : ∀ ds, IsDigits ds → ds.length = 4 → decimal ds < 10000 := by
      intro ds h1 h2
      have := decimal_lt ds ((isDigits_iff _).1 h1).2
      rwa [h2] at this
    cases h with
    | plain ds h1 h2 =>
      have := small _ h1 h2
      rw [showYear, if_pos ⟨by omega, by omega⟩, Int.toNat_natCast, fixed_decimal h1 h2]
    | later ds h1 h2 h3 =>
      have := big _ h1 h2 h3
      rw [showYear, if_neg (by omega), if_neg (by omega), if_neg (by omega), Int.natAbs_natCast,
        natDigits_decimal h1 h3]
    | earlier ds h1 h2 h3 =>
      rw [showYear, if_neg (by omega), if_pos (by omega), Int.natAbs_neg, Int.natAbs_natCast]
      rcases h3 with h3 | ⟨h3, h4⟩
      · rw [if_pos (small _ h1 h3), fixed_decimal h1 h3]
      · have := big _ h1 h3 h4
        rw [if_neg (by omega), natDigits_decimal h1 h4]

theorem decimal_append (a b : Str) : decimal (a ++ b) = decimal a * 10 ^ b.length + decimal b := by
  have key : ∀ (b : Str) (n : Nat), val n b = n * 10 ^ b.length + val 0 b := by
    intro b
    induction b with
    | nil => intro n; simp [val]
    | cons c b ih =>
      intro n
      have h1 := ih (n * 10 + (c.toNat - 48))
      have h2 := ih (0 * 10 + (c.toNat - 48))
      simp only [val, List.foldl_cons, List.length_cons] at h1 h2 ⊢
      rw [h1, h2, Nat.pow_succ]
      ring
  rw [← val_eq_decimal, ← val_eq_decimal, ← val_eq_decimal, ← key b (val 0 a)]
  simp [val, List.foldl_append]

/-- The last three digits. -/
theorem suffix_iff {ds : Str} (h : IsDigits ds) (hl : 3 ≤ ds.length) :
    str! "000" <:+ ds ↔ decimal ds % 1000 = 0 := by
  have hs : ds = ds.take (ds.length - 3) ++ ds.drop (ds.length - 3) := (List.take_append_drop ..).symm
  have hl3 : (ds.drop (ds.length - 3)).length = 3 := by simp; omega
  have hd3 : ∀ c ∈ ds.drop (ds.length - 3), Json.isDigit c = true := fun c hc =>
    ((isDigits_iff _).1 h).2 c (List.mem_of_mem_drop hc)
  have hv : decimal ds % 1000 = decimal (ds.drop (ds.length - 3)) := by
    conv_lhs => rw [hs, decimal_append, hl3]
    have := decimal_lt _ hd3
    rw [hl3] at this
    omega
  rw [hv]
  constructor
  · intro hx
    have := List.suffix_iff_eq_drop.1 hx
    rw [show (str! "000").length = 3 from rfl] at this
    rw [← this]; rfl
  · intro hx
    have : ds.drop (ds.length - 3) = str! "000" :=
      digits_inj hd3 (by decide) hl3 (by rw [hx]; rfl)
    rw [← this]
    exact List.drop_suffix _ _

/-- Fractions are written so and not otherwise. -/
theorem showFraction_iff (s : Str) (ns : Nat) (hn : ns < 1000000000) : showFraction ns = s ↔ WrittenFraction s ns := by
  constructor
  · rintro rfl
    have key : ∀ w, w ∈ [3, 6, 9] → ∀ n, n < 10 ^ w → n % 1000 ≠ 0 →
        WrittenFraction ('.' :: fixed w n) (n * 10 ^ (9 - w)) := by
      intro w hw n h1 h2
      have hw0 : 3 ≤ w ∧ w ≤ 9 := by
        simp only [List.mem_cons, List.not_mem_nil, or_false] at hw; omega
      obtain ⟨f1, f2, f3⟩ := fixed_digits (w := w) (n := n) (by omega) h1
      have := WrittenFraction.some _ f1 (by rw [f2]; exact hw)
        (fun h => h2 (by rw [suffix_iff f1 (by omega), f3] at h; exact h))
      rwa [nanos, List.take_of_length_le (by omega), f2, f3] at this
    unfold showFraction
    split_ifs with h1 h2 h3
    · subst h1; exact .none
    · have := key 3 (by simp) (ns / 1000000) (by omega) (by omega)
      rwa [show ns / 1000000 * 10 ^ (9 - 3) = ns by norm_num; omega] at this
    · have := key 6 (by simp) (ns / 1000) (by omega) (by omega)
      rwa [show ns / 1000 * 10 ^ (9 - 6) = ns by norm_num; omega] at this
    · have := key 9 (by simp) ns (by omega) (by omega)
      rwa [show ns * 10 ^ (9 - 9) = ns by norm_num] at this
  · intro h
    cases h with
    | none => rfl
    | some ds h1 h2 h3 =>
      have hlt := decimal_lt ds ((isDigits_iff _).1 h1).2
      have hl : ds.length = 3 ∨ ds.length = 6 ∨ ds.length = 9 := by simpa using h2
      rw [suffix_iff h1 (by omega)] at h3
      rw [nanos, List.take_of_length_le (by omega), showFraction]
      rcases hl with hl | hl | hl <;> rw [hl] at hlt ⊢
      · norm_num at hlt ⊢
        rw [if_neg (by omega), fixed_decimal h1 hl]
      · norm_num at hlt ⊢
        rw [if_neg (by omega), if_neg (by omega), fixed_decimal h1 hl]
      · norm_num at hlt ⊢
        rw [if_neg (by omega), if_neg (by omega), if_neg (by omega), fixed_decimal h1 hl]

end Chrono
end Oid4vci
