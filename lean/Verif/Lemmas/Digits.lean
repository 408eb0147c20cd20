import Verif.Base.Json
import Verif.Lemmas.Range

/-! Decimal digits of natural numbers. -/

namespace Oid4vci
namespace Json

open Spec

/-- A rest that does not continue a number. -/
def Ends (s : Str) : Prop :=
  ∀ c ∈ s.head?, isDigit c = false ∧ c ≠ '.' ∧ c ≠ 'e' ∧ c ≠ 'E'

theorem natDigitsAux_acc (f n : Nat) (acc : Str) :
    natDigitsAux f n acc = natDigitsAux f n [] ++ acc := by
  induction f generalizing n acc with
  | zero => simp [natDigitsAux]
  | succ f ih =>
    simp only [natDigitsAux]
    split
    · simp
    · rw [ih, ih (acc := [_])]; simp

theorem digit_facts (n : Fin 10) : isDigit (Char.ofNat (48 + n.1)) = true ∧
    (Char.ofNat (48 + n.1)).toNat - 48 = n.1 ∧ (n.1 ≠ 0 → Char.ofNat (48 + n.1) ≠ '0') := by
  revert n; decide

theorem digitsVal_snoc (s : Str) (c : Char) :
    digitsVal (s ++ [c]) = digitsVal s * 10 + (c.toNat - 48) := by
  simp [digitsVal, List.foldl_append]

theorem natDigits_facts (f n : Nat) (h : n < f) :
    (∀ c ∈ natDigitsAux f n [], isDigit c = true) ∧ digitsVal (natDigitsAux f n []) = n ∧
    natDigitsAux f n [] ≠ [] ∧ (n ≠ 0 → (natDigitsAux f n []).head? ≠ some '0') ∧
    (n = 0 → natDigitsAux f n [] = ['0']) := by
  induction f generalizing n with
  | zero => omega
  | succ f ih =>
    obtain ⟨d1, d2, d3⟩ := digit_facts ⟨n % 10, Nat.mod_lt _ (by omega)⟩
    simp only at d1 d2 d3
    simp only [natDigitsAux]
    split
    · rename_i h0
      refine ⟨by simpa using d1, ?_, by simp, ?_, ?_⟩
      · have := digitsVal_snoc [] (Char.ofNat (48 + n % 10))
        rw [List.nil_append] at this
        rw [this, d2]
        simp [digitsVal]; omega
      · intro hn; simp only [List.head?_cons, ne_eq, Option.some.injEq]; exact d3 (by omega)
      · rintro rfl; rfl
    · rename_i h0
      obtain ⟨i1, i2, i3, i4, -⟩ := ih (n / 10) (by omega)
      rw [natDigitsAux_acc]
      refine ⟨?_, ?_, by simp, ?_, by omega⟩
      · intro c hc
        rcases List.mem_append.1 hc with hc | hc
        · exact i1 c hc
        · simp at hc; rw [hc]; exact d1
      · rw [digitsVal_snoc, i2, d2]; omega
      · intro hn
        have := i4 h0
        rw [List.head?_append]
        cases hh : (natDigitsAux f (n / 10) []).head? with
        | none => simp at hh; exact absurd hh i3
        | some c => rw [hh] at this; simpa using this

theorem takeWhile_digits (ds rest : Str) (h : ∀ c ∈ ds, isDigit c = true) (hr : Ends rest) :
    (ds ++ rest).takeWhile isDigit = ds ∧ (ds ++ rest).dropWhile isDigit = rest := by
  have hrest : rest.takeWhile isDigit = [] ∧ rest.dropWhile isDigit = rest := by
    cases rest with
    | nil => simp
    | cons c r =>
      have := (hr c (by simp)).1
      simp [this]
  constructor
  · rw [List.takeWhile_append_of_pos h, hrest.1, List.append_nil]
  · rw [List.dropWhile_append_of_pos h, hrest.2]

theorem natDigits_cons (n : Nat) : ∃ c t, natDigits n = c :: t ∧ isDigit c = true := by
  obtain ⟨f1, -, f3, -, -⟩ := natDigits_facts (n + 1) n (by omega)
  unfold natDigits
  cases h : natDigitsAux (n + 1) n [] with
  | nil => exact absurd h f3
  | cons c t => exact ⟨c, t, rfl, f1 c (by rw [h]; simp)⟩

theorem isDigit_facts {c : Char} (h : isDigit c = true) :
    isWs c = false ∧ c ≠ '"' ∧ c ≠ '[' ∧ c ≠ '{' ∧ c ≠ ']' ∧ c ≠ '}' ∧ c ≠ '-' ∧ c ≠ ',' := by
  have hc : ∀ n : Fin 128, isDigit (Char.ofNat n.1) = true →
      isWs (Char.ofNat n.1) = false ∧ Char.ofNat n.1 ≠ '"' ∧ Char.ofNat n.1 ≠ '['
      ∧ Char.ofNat n.1 ≠ '{' ∧ Char.ofNat n.1 ≠ ']' ∧ Char.ofNat n.1 ≠ '}' ∧ Char.ofNat n.1 ≠ '-'
      ∧ Char.ofNat n.1 ≠ ',' := by
    decide +kernel
  have hlt : c.toNat < 128 := by simp [isDigit] at h; omega
  have := hc ⟨c.toNat, hlt⟩
  simp only [Char.ofNat_toNat] at this
  exact this h

theorem zero_digit {c : Char} (h : isDigit c = true) : c.toNat - 48 = 0 ↔ c = '0' := by
  have := mem_digits.2 ⟨h, rfl⟩
  constructor
  · intro h0
    rw [h0] at this
    simp [digits] at this
    exact this
  · rintro rfl; rfl

end Json
end Oid4vci
