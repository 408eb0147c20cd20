import Verif.Lemmas.Digits
import Verif.Spec.JsonText

/-! The parser's numbers are those of RFC 8259. -/

namespace Oid4vci
namespace Json

open Spec

theorem parseExp_ends (s : Str) (h : Ends s) : parseExp s = some ([], s) := by
  cases s with
  | nil => rfl
  | cons c r =>
    have := h c (by simp)
    simp [parseExp, this.2.2.1, this.2.2.2]

theorem parseFrac_ends (s : Str) (h : Ends s) : parseFrac s = some ([], s) := by
  cases s with
  | nil => rfl
  | cons c r =>
    have h1 := h c (by simp)
    unfold parseFrac
    split
    · rename_i heq; simp at heq; exact absurd heq.1 h1.2.1
    · exact parseExp_ends _ h

theorem intText_iff {n : Nat} {s : Str} : IntText n s ↔
    s ≠ [] ∧ (∀ c ∈ s, isDigit c = true) ∧ ¬ (s.head? = some '0' ∧ s ≠ ['0']) ∧ n = digitsVal s := by
  unfold IntText
  simp only [digitsText_iff]
  have key : ∀ (_ : ∀ c ∈ s, isDigit c = true),
      (((s.map fun c => c.toNat - 48).head? = some 0 → (s.map fun c => c.toNat - 48) = [0]) ↔
        ¬ (s.head? = some '0' ∧ s ≠ ['0'])) := by
    intro hd
    match s, hd with
    | [], _ => simp
    | [c], hd => simp [zero_digit (hd c (by simp))]
    | c :: c' :: t, hd => simp [zero_digit (hd c (by simp))]
  constructor
  · rintro ⟨ds, ⟨h1, h2, rfl⟩, h3, rfl⟩
    exact ⟨h1, h2, (key h2).1 h3, (digitsVal_numeral s).symm⟩
  · rintro ⟨h1, h2, h3, rfl⟩
    exact ⟨_, ⟨h1, h2, rfl⟩, (key h2).2 h3, digitsVal_numeral s⟩

theorem takeWhile_dropWhile_digits (s : Str) :
    s = s.takeWhile isDigit ++ s.dropWhile isDigit ∧ ∀ c ∈ s.takeWhile isDigit, isDigit c = true := by
  refine ⟨List.takeWhile_append_dropWhile.symm, ?_⟩
  induction s with
  | nil => simp
  | cons c s ih =>
    intro x hx
    rw [List.takeWhile_cons] at hx
    split at hx
    · rcases List.mem_cons.1 hx with rfl | hx
      · assumption
      · exact ih x hx
    · cases hx

theorem parseExp_sound {s e r : Str} (h : parseExp s = some (e, r)) : ExpText e ∧ s = e ++ r := by
  unfold parseExp at h
  split at h
  · split at h
    · rename_i he
      split at h
      · split at h
        · rename_i hs
          simp only at h
          split at h
          · cases h
          · cases h
            rename_i x _ sgn r' hne
            obtain ⟨h1, h2⟩ := takeWhile_dropWhile_digits r'
            refine ⟨Or.inr ⟨_, _, digitsText_iff.2 ⟨hne, h2, rfl⟩, x, by simpa using he, [sgn], ?_, rfl⟩, ?_⟩
            · simpa using hs
            · rw [List.cons_append, List.cons_append, ← h1]
        · simp only at h
          split at h
          · cases h
          · cases h
            rename_i x _ sgn r' _ hne
            obtain ⟨h1, h2⟩ := takeWhile_dropWhile_digits (sgn :: r')
            refine ⟨Or.inr ⟨_, _, digitsText_iff.2 ⟨hne, h2, rfl⟩, x, by simpa using he, [], by simp, rfl⟩, ?_⟩
            rw [List.cons_append, ← h1]
      · cases h
    · cases h; exact ⟨Or.inl rfl, rfl⟩
  · cases h; exact ⟨Or.inl rfl, rfl⟩

theorem parseFrac_sound {s e r : Str} (h : parseFrac s = some (e, r)) :
    ∃ f x, FracText f ∧ ExpText x ∧ e = f ++ x ∧ s = e ++ r := by
  unfold parseFrac at h
  split at h
  · rename_i r'
    simp only at h
    split at h
    · cases h
    · rename_i hne
      simp only [Option.map_eq_some_iff, Prod.mk.injEq] at h
      obtain ⟨⟨x, r''⟩, hx, rfl, rfl⟩ := h
      obtain ⟨h1, h2⟩ := takeWhile_dropWhile_digits r'
      obtain ⟨h3, h4⟩ := parseExp_sound hx
      refine ⟨'.' :: r'.takeWhile isDigit, x, Or.inr ⟨_, _, digitsText_iff.2 ⟨hne, h2, rfl⟩, rfl⟩, h3,
        rfl, ?_⟩
      simp only [List.cons_append, List.append_assoc, ← h4, ← h1]
  · obtain ⟨h3, h4⟩ := parseExp_sound h
    exact ⟨[], e, Or.inl rfl, h3, rfl, h4⟩

theorem parseNumber_sound {neg : Bool} {s r : Str} {j : Lexical} (h : parseNumber neg s = some (j, r)) :
    ∃ t, NumberText j ((if neg then ['-'] else []) ++ t) ∧ s = t ++ r := by
  unfold parseNumber at h
  simp only at h
  split at h
  · cases h
  rename_i hne
  split at h
  · cases h
  rename_i hz
  obtain ⟨h1, h2⟩ := takeWhile_dropWhile_digits s
  have hi : IntText (digitsVal (s.takeWhile isDigit)) (s.takeWhile isDigit) :=
    intText_iff.2 ⟨hne, h2, hz, rfl⟩
  split at h
  · cases h
  rename_i fr r' hf
  obtain ⟨f, x, hft, hxt, rfl, hs⟩ := parseFrac_sound hf
  have hsr : ∀ r'', r' = r'' → s = (s.takeWhile isDigit ++ (f ++ x)) ++ r'' := by
    rintro _ rfl
    rw [List.append_assoc, ← hs, ← h1]
  split at h
  · rename_i hfx
    cases h
    refine ⟨_, ?_, hsr _ rfl⟩
    have := NumberText.otherwise neg _ _ f x hi hft hxt (fun h => absurd h hfx)
    simpa only [List.append_assoc] using this
  rename_i hfx
  have hfx : f ++ x = [] := by simpa using hfx
  rw [hfx] at hsr
  split at h
  · rename_i hn
    subst hn
    split at h
    · rename_i hb
      cases h
      refine ⟨_, ?_, hsr _ rfl⟩
      have := NumberText.otherwise true _ _ f x hi hft hxt (fun _ => by simpa using hb)
      rw [List.append_assoc _ f x] at this
      rw [hfx] at this ⊢
      simpa using this
    · rename_i hb
      cases h
      refine ⟨_, ?_, hsr _ rfl⟩
      have := NumberText.negative _ _ hi (by omega) (by omega)
      simpa using this
  · rename_i hn
    have hn : neg = false := by simpa using hn
    subst hn
    split at h
    · rename_i hb
      cases h
      refine ⟨_, ?_, hsr _ rfl⟩
      have := NumberText.nonneg _ _ hi hb
      simpa using this
    · rename_i hb
      cases h
      refine ⟨_, ?_, hsr _ rfl⟩
      have := NumberText.otherwise false _ _ f x hi hft hxt (fun _ => by simpa using hb)
      rw [List.append_assoc _ f x] at this
      rw [hfx] at this ⊢
      simpa using this

theorem Ends.noDigit {s : Str} (h : Ends s) : NoDigit s := fun c hc => (h c hc).1

theorem parseExp_complete {e r : Str} (h : ExpText e) (hr : Ends r) :
    parseExp (e ++ r) = some (e, r) := by
  rcases h with rfl | ⟨ds, t, hd, x, hx, sign, hs, rfl⟩
  · exact parseExp_ends r hr
  obtain ⟨hne, hdig, -⟩ := digitsText_iff.1 hd
  obtain ⟨h1, h2⟩ := takeWhile_digits' t r hdig hr.noDigit
  have hx : x = 'e' ∨ x = 'E' := by simpa using hx
  obtain ⟨c, t', rfl⟩ : ∃ c t', t = c :: t' := by
    cases t with
    | nil => exact absurd rfl hne
    | cons c t' => exact ⟨c, t', rfl⟩
  have hc := hdig c (by simp)
  have hcs : ¬ (c = '+' ∨ c = '-') := by
    rintro (rfl | rfl) <;> exact absurd hc (by decide)
  simp only [List.mem_cons, List.not_mem_nil, or_false] at hs
  rcases hs with rfl | rfl | rfl
  · simp only [List.nil_append, List.cons_append] at h1 h2 ⊢
    simp only [parseExp, hx, if_true, hcs, if_false, h1, h2]
    simp
  · simp only [List.nil_append, List.cons_append] at h1 h2 ⊢
    simp only [parseExp, hx, if_true, Char.reduceEq, or_false, h1, h2]
    simp
  · simp only [List.nil_append, List.cons_append] at h1 h2 ⊢
    simp only [parseExp, hx, if_true, Char.reduceEq, false_or, h1, h2]
    simp

theorem expText_noDigit {e r : Str} (h : ExpText e) (hr : Ends r) :
    NoDigit (e ++ r) ∧ ∀ c ∈ (e ++ r).head?, c ≠ '.' := by
  rcases h with rfl | ⟨ds, t, hd, x, hx, sign, hs, rfl⟩
  · exact ⟨hr.noDigit, fun c hc => (hr c hc).2.1⟩
  · simp only [List.mem_cons, List.not_mem_nil, or_false] at hx
    constructor <;> rcases hx with rfl | rfl <;> (intro c hc; simp at hc; subst hc; decide)

theorem parseFrac_complete {f e r : Str} (hf : FracText f) (h : ExpText e) (hr : Ends r) :
    parseFrac (f ++ e ++ r) = some (f ++ e, r) ∧ NoDigit (f ++ e ++ r) := by
  obtain ⟨n1, n2⟩ := expText_noDigit h hr
  rcases hf with rfl | ⟨ds, t, hd, rfl⟩
  · rw [List.nil_append]
    refine ⟨?_, n1⟩
    unfold parseFrac
    split
    · rename_i heq; exact absurd rfl (n2 '.' (by rw [heq]; rfl))
    · exact parseExp_complete h hr
  · obtain ⟨hne, hdig, -⟩ := digitsText_iff.1 hd
    obtain ⟨h1, h2⟩ := takeWhile_digits' t (e ++ r) hdig n1
    refine ⟨?_, by intro c hc; simp at hc; subst hc; decide⟩
    simp only [List.cons_append, List.append_assoc, parseFrac, h1, h2, hne, if_false,
      parseExp_complete h hr, Option.map_some]

theorem parseNumber_complete {neg : Bool} {n : Nat} {s f e r : Str} (hi : IntText n s) (hf : FracText f)
    (he : ExpText e) (hr : Ends r) :
    parseNumber neg (s ++ (f ++ e ++ r)) =
      if f ++ e ≠ [] then some (.float ((if neg then ['-'] else []) ++ s ++ (f ++ e)), r)
      else if neg then
        if n = 0 ∨ 2 ^ 63 < n then some (.float ((if neg then ['-'] else []) ++ s ++ (f ++ e)), r)
        else some (.num (-(n : Int)), r)
      else if n < 2 ^ 64 then some (.num n, r)
      else some (.float ((if neg then ['-'] else []) ++ s ++ (f ++ e)), r) := by
  obtain ⟨h1, h2, h3, rfl⟩ := intText_iff.1 hi
  obtain ⟨p1, p2⟩ := parseFrac_complete hf he hr
  obtain ⟨t1, t2⟩ := takeWhile_digits' s _ h2 p2
  unfold parseNumber
  simp only [t1, t2, h1, h3, if_false, p1]

theorem number_complete {j : Lexical} {t r : Str} (h : NumberText j t) (hr : Ends r) :
    (∃ t', t = '-' :: t' ∧ parseNumber true (t' ++ r) = some (j, r)) ∨
    (∃ c t', t = c :: t' ∧ isDigit c = true ∧ parseNumber false (t ++ r) = some (j, r)) := by
  have hc : ∀ {n s}, IntText n s → ∃ c t', s = c :: t' ∧ isDigit c = true := by
    intro n s hi
    obtain ⟨h1, h2, -⟩ := intText_iff.1 hi
    cases s with
    | nil => exact absurd rfl h1
    | cons c t' => exact ⟨c, t', rfl, h2 c (by simp)⟩
  cases h with
  | nonneg n _ hi hn =>
    obtain ⟨c, t', e, hd⟩ := hc hi
    have := parseNumber_complete (neg := false) (f := []) (e := []) hi (Or.inl rfl) (Or.inl rfl) hr
    refine Or.inr ⟨c, t', e, hd, ?_⟩
    simpa [show n < 18446744073709551616 from hn] using this
  | negative n s hi h0 hn =>
    have := parseNumber_complete (neg := true) (f := []) (e := []) hi (Or.inl rfl) (Or.inl rfl) hr
    refine Or.inl ⟨s, rfl, ?_⟩
    have hb : ¬ (n = 0 ∨ 2 ^ 63 < n) := by omega
    simp only [List.append_nil, List.nil_append, ne_eq, not_true_eq_false, if_false, if_true, hb] at this
    exact this
  | otherwise neg n s f e hi hf he hcase =>
    have key : ∀ neg, (f ++ e = [] → if neg then n = 0 ∨ 2 ^ 63 < n else 2 ^ 64 ≤ n) →
        parseNumber neg (s ++ (f ++ e ++ r)) =
          some (.float ((if neg then ['-'] else []) ++ s ++ (f ++ e)), r) := by
      intro neg hcase
      rw [parseNumber_complete hi hf he hr]
      by_cases h0 : f ++ e = []
      · have := hcase h0
        cases neg with
        | true => simp only [if_true] at this; simp only [h0, this, if_true, ne_eq, not_true_eq_false, if_false]
        | false =>
          simp only [Bool.false_eq_true, if_false] at this
          simp only [h0, ne_eq, not_true_eq_false, if_false, Bool.false_eq_true]
          rw [if_neg (by omega)]
      · rw [if_pos h0]
    have := key neg hcase
    obtain ⟨c, t', e', hd⟩ := hc hi
    cases neg with
    | true =>
      refine Or.inl ⟨s ++ (f ++ e), by simp, ?_⟩
      rw [show (s ++ (f ++ e) ++ r) = s ++ (f ++ e ++ r) by simp, this]
      simp
    | false =>
      refine Or.inr ⟨c, t' ++ (f ++ e), by simp [e'], hd, ?_⟩
      rw [show ((if false = true then ['-'] else []) ++ s ++ f ++ e ++ r) = s ++ (f ++ e ++ r) by simp, this]
      simp

theorem numberText_parts {j : Lexical} {t : Str} (h : NumberText j t) :
    (∀ l, j = .float l → l = t) ∧ ∃ i f x, NumberParts t i f x := by
  have frac : ∀ {f}, FracText f → ∃ fs, (f = [] ∧ fs = []) ∨ ∃ t, DigitsText fs t ∧ f = '.' :: t := by
    rintro f (rfl | ⟨ds, t, h1, rfl⟩)
    · exact ⟨[], .inl ⟨rfl, rfl⟩⟩
    · exact ⟨ds, .inr ⟨t, h1, rfl⟩⟩
  have ex : ∀ {e}, ExpText e → ∃ x : Int, (e = [] ∧ x = 0) ∨ ∃ ds t, DigitsText ds t ∧ ∃ c ∈ ['e', 'E'],
      (e = c :: t ∧ x = numeral 10 ds) ∨ (e = c :: '+' :: t ∧ x = numeral 10 ds) ∨
      (e = c :: '-' :: t ∧ x = -(numeral 10 ds : Int)) := by
    rintro e (rfl | ⟨ds, t, h1, c, hc, sign, hs, rfl⟩)
    · exact ⟨0, .inl ⟨rfl, rfl⟩⟩
    · simp only [List.mem_cons, List.not_mem_nil, or_false] at hs
      rcases hs with rfl | rfl | rfl
      · exact ⟨_, .inr ⟨ds, t, h1, c, hc, .inl ⟨rfl, rfl⟩⟩⟩
      · exact ⟨_, .inr ⟨ds, t, h1, c, hc, .inr (.inl ⟨rfl, rfl⟩)⟩⟩
      · exact ⟨_, .inr ⟨ds, t, h1, c, hc, .inr (.inr ⟨rfl, rfl⟩)⟩⟩
  cases h with
  | nonneg n s hi _ =>
    obtain ⟨ds, hd, -⟩ := hi
    exact ⟨by simp, ds, [], 0, [], t, [], [], by simp, by simp, hd, .inl ⟨rfl, rfl⟩, .inl ⟨rfl, rfl⟩⟩
  | negative n s hi _ _ =>
    obtain ⟨ds, hd, -⟩ := hi
    exact ⟨by simp, ds, [], 0, ['-'], s, [], [], by simp, by simp, hd, .inl ⟨rfl, rfl⟩, .inl ⟨rfl, rfl⟩⟩
  | otherwise neg n s f e hi hf he _ =>
    obtain ⟨ds, hd, -⟩ := hi
    obtain ⟨fs, hf⟩ := frac hf
    obtain ⟨x, hx⟩ := ex he
    exact ⟨by simp, ds, fs, x, _, s, f, e, by cases neg <;> simp, rfl, hd, hf, hx⟩

theorem readNumber_num {neg : Bool} {s r : Str} {n : Int} (h : parseNumber neg s = some (.num n, r)) :
    readNumber neg s = some (num n, r) := by
  unfold readNumber
  rw [h]

theorem readNumber_float {neg : Bool} {s r l : Str} (ht : NumberText (.float l) l) {d : Double} (hr : ReadAs l d)
    (h : parseNumber neg s = some (.float l, r)) : readNumber neg s = some (float d, r) := by
  obtain ⟨-, i, f, x, hp⟩ := numberText_parts ht
  unfold readNumber
  rw [h]
  simp only [(readAs_iff hp).1 hr, Option.map_some]

theorem readNumber_sound {neg : Bool} {s r : Str} {j : Json} (h : readNumber neg s = some (j, r)) :
    ∃ t, ValueText j ((if neg then ['-'] else []) ++ t) ∧ depth j = 0 ∧ s = t ++ r := by
  unfold readNumber at h
  split at h
  · rename_i n r' hp
    cases h
    obtain ⟨t, ht, hs⟩ := parseNumber_sound hp
    exact ⟨t, .integer _ _ ht, by simp [depth], hs⟩
  · rename_i l r' hp
    simp only [Option.map_eq_some_iff, Prod.mk.injEq] at h
    obtain ⟨d, hd, rfl, rfl⟩ := h
    obtain ⟨t, ht, hs⟩ := parseNumber_sound hp
    obtain ⟨h1, i, f, x, h2⟩ := numberText_parts ht
    have := h1 l rfl
    subst this
    exact ⟨t, .float _ _ ht ((readAs_iff h2).2 hd), by simp [depth], hs⟩
  · cases h

end Json
end Oid4vci
