import Verif.Lemmas.ChronoText
import Verif.Spec.Instant

/-! The date-time parser, item by item, as relations. -/

namespace Oid4vci
namespace Chrono

open Spec

theorem isWhitespace_iff (c : Char) : isWhitespace c = true ↔ WhiteSpace c := by
  simp only [isWhitespace, WhiteSpace, Bool.or_eq_true, Bool.and_eq_true, decide_eq_true_eq, beq_iff_eq,
    List.mem_cons, List.not_mem_nil, or_false]
  omega

theorem isDigit_iff (c : Char) :
    Json.isDigit c = true ↔ c ∈ ['0', '1', '2', '3', '4', '5', '6', '7', '8', '9'] := by
  constructor
  · intro h
    simp only [Json.isDigit, Bool.and_eq_true, decide_eq_true_eq] at h
    have hc : Char.ofNat c.toNat = c := Char.ofNat_toNat c
    have : c.toNat = 48 ∨ c.toNat = 49 ∨ c.toNat = 50 ∨ c.toNat = 51 ∨ c.toNat = 52 ∨ c.toNat = 53 ∨
      c.toNat = 54 ∨ c.toNat = 55 ∨ c.toNat = 56 ∨ c.toNat = 57 := by omega
    rcases this with h | h | h | h | h | h | h | h | h | h <;> rw [h] at hc <;> rw [← hc] <;> decide
  · intro h
    simp only [List.mem_cons, List.not_mem_nil, or_false] at h
    rcases h with rfl | rfl | rfl | rfl | rfl | rfl | rfl | rfl | rfl | rfl <;> decide

theorem isDigits_iff (ds : Str) : IsDigits ds ↔ ds ≠ [] ∧ ∀ c ∈ ds, Json.isDigit c = true := by
  simp only [IsDigits, isDigit_iff]

theorem val_eq_decimal (ds : Str) : val 0 ds = decimal ds := by
  unfold val decimal
  congr 1
  funext a c
  rw [Nat.mul_comm]
  rfl

theorem dropWhile_blank (w s : Str) (hw : Blank w) (hs : ∀ c ∈ s.head?, isWhitespace c = false) :
    trimStart (w ++ s) = s := by
  unfold trimStart
  induction w with
  | nil =>
    cases s with
    | nil => rfl
    | cons c s => simp [hs c rfl]
  | cons c w ih =>
    rw [List.cons_append, List.dropWhile_cons_of_pos ((isWhitespace_iff c).2 (hw c (by simp)))]
    exact ih fun c hc => hw c (by simp [hc])

theorem trimStart_split (s : Str) : ∃ w, Blank w ∧ s = w ++ trimStart s :=
  ⟨s.takeWhile isWhitespace, fun c hc => (isWhitespace_iff c).1 (List.all_eq_true.1 List.all_takeWhile c hc),
    (List.takeWhile_append_dropWhile ..).symm⟩

theorem blank_append {v w : Str} (hv : Blank v) (hw : Blank w) : Blank (v ++ w) := by
  intro c hc
  rcases List.mem_append.1 hc with h | h
  · exact hv c h
  · exact hw c h

theorem separator_iff {c : Char} (hc : isWhitespace c = false) {s r : Str} :
    separator c s = some r ↔ ∃ w, Blank w ∧ s = w ++ c :: r := by
  unfold separator
  constructor
  · intro h
    obtain ⟨w, hw, hs⟩ := trimStart_split s
    split at h
    · rename_i d r' ht
      split at h
      · rename_i hd
        cases h
        exact ⟨w, hw, by rw [hs, ht, hd]⟩
      · cases h
    · cases h
  · rintro ⟨w, hw, rfl⟩
    rw [dropWhile_blank w _ hw (by simpa using hc)]
    simp

theorem digits_inv (s : Str) : ∀ (max : Option Nat) (acc n : Nat) (r : Str), digits max s acc = some (n, r) →
    ∃ ds, s = ds ++ r ∧ (∀ c ∈ ds, Json.isDigit c = true) ∧ n = val acc ds ∧
      (∀ k, max = some k → ds.length ≤ k) ∧ (NoDigit r ∨ max = some ds.length) := by
  induction s with
  | nil =>
    intro max acc n r h
    have : some (acc, []) = some (n, r) := by
      rw [← h]
      cases max with
      | none => rfl
      | some k => cases k <;> rfl
    cases this
    exact ⟨[], rfl, by simp, rfl, by simp, .inl (by intro c hc; simp at hc)⟩
  | cons c s ih =>
    intro max acc n r h
    by_cases hm : max = some 0
    · subst hm
      simp only [digits] at h
      cases h
      exact ⟨[], rfl, by simp, rfl, by simp, .inr rfl⟩
    · have hd : digits max (c :: s) acc = if Json.isDigit c then
          (if acc * 10 + (c.toNat - 48) < 2 ^ 63 then digits (max.map (· - 1)) s (acc * 10 + (c.toNat - 48))
            else none) else some (acc, c :: s) := by
        cases max with
        | none => rfl
        | some k =>
          cases k with
          | zero => exact absurd rfl hm
          | succ k => rfl
      rw [hd] at h
      split at h
      · rename_i hdig
        split at h
        · obtain ⟨ds, rfl, h1, h2, h3, h4⟩ := ih _ _ _ _ h
          refine ⟨c :: ds, rfl, ?_, h2, ?_, ?_⟩
          · intro d hd
            rcases List.mem_cons.1 hd with rfl | hd
            · exact hdig
            · exact h1 d hd
          · rintro k rfl
            cases k with
            | zero => exact absurd rfl hm
            | succ k =>
              have := h3 k rfl
              simp only [List.length_cons]; omega
          · rcases h4 with h4 | h4
            · exact .inl h4
            · cases max with
              | none => cases h4
              | some k =>
                right
                cases k with
                | zero => exact absurd rfl hm
                | succ k =>
                  simp only [Option.map_some, Nat.add_sub_cancel, Option.some.injEq] at h4
                  simp [h4]
        · cases h
      · rename_i hdig
        cases h
        refine ⟨[], rfl, by simp, rfl, by simp, .inl ?_⟩
        intro d hd
        cases hd
        simpa using hdig

theorem number_inv {max : Option Nat} {s : Str} {n : Nat} {r : Str} (hmax : max ≠ some 0)
    (h : number max s = some (n, r)) :
    ∃ ds, s = ds ++ r ∧ IsDigits ds ∧ n = decimal ds ∧ (∀ k, max = some k → ds.length ≤ k) ∧
      (NoDigit r ∨ max = some ds.length) := by
  unfold number at h
  split at h
  · cases h
  · rename_i c s
    split at h
    · rename_i hc
      obtain ⟨ds, h0, h1, h2, h3, h4⟩ := digits_inv _ _ _ _ _ h
      refine ⟨ds, h0, (isDigits_iff ds).2 ⟨?_, h1⟩, by rw [h2, val_eq_decimal], h3, h4⟩
      rintro rfl
      rcases h4 with h4 | h4
      · have := h4 c (by rw [show r = c :: s from h0.symm]; rfl)
        rw [hc] at this
        cases this
      · exact hmax h4
    · cases h

/-- At most `k` digits at the front, when they are all the digits there or exactly `k`. -/
theorem number_digits (k : Nat) (ds r : Str) (hd : IsDigits ds) (hl : ds.length ≤ k)
    (hb : decimal ds < 2 ^ 63) (hr : NoDigit r ∨ ds.length = k) :
    number (some k) (ds ++ r) = some (decimal ds, r) := by
  obtain ⟨h1, h2⟩ := (isDigits_iff ds).1 hd
  rw [number_cons _ _ _ h1 h2]
  have h := digits_some ds r (k - ds.length) 0 h2 (by rw [val_eq_decimal]; exact hb)
  rw [show ds.length + (k - ds.length) = k by omega] at h
  rw [h, val_eq_decimal]
  rcases hr with hr | hr
  · exact digits_stop _ _ _ hr
  · rw [hr, Nat.sub_self]; simp [digits]

theorem decimal_lt (ds : Str) (h : ∀ c ∈ ds, Json.isDigit c = true) : decimal ds < 10 ^ ds.length := by
  rw [← val_eq_decimal]
  suffices H : ∀ acc, val acc ds < (acc + 1) * 10 ^ ds.length by simpa using H 0
  induction ds with
  | nil => intro acc; simp [val]
  | cons c ds ih =>
    intro acc
    have h1 := ih (fun c hc => h c (by simp [hc])) (acc * 10 + (c.toNat - 48))
    have hc := h c (by simp)
    simp only [Json.isDigit, Bool.and_eq_true, decide_eq_true_eq] at hc
    have : (acc * 10 + (c.toNat - 48) + 1) * 10 ^ ds.length ≤ (acc + 1) * 10 * 10 ^ ds.length :=
      Nat.mul_le_mul_right _ (by omega)
    rw [List.length_cons, Nat.pow_succ, Nat.mul_comm (10 ^ ds.length) 10, ← Nat.mul_assoc]
    exact Nat.lt_of_lt_of_le h1 this

theorem digits_head (ds r : Str) (h : IsDigits ds) : ∀ c ∈ (ds ++ r).head?, isWhitespace c = false := by
  obtain ⟨h1, h2⟩ := (isDigits_iff ds).1 h
  cases ds with
  | nil => exact absurd rfl h1
  | cons c ds =>
    intro d hd
    cases hd
    exact isDigit_notWs (h2 c (by simp))

theorem numeric2_inv {s r : Str} {n : Nat} (h : numeric2 s = some (n, r)) :
    ∃ w ds, Blank w ∧ Digits 2 ds n ∧ s = w ++ (ds ++ r) := by
  obtain ⟨w, hw, hs⟩ := trimStart_split s
  obtain ⟨ds, h1, h2, h3, h4, h5⟩ := number_inv (by decide) h
  exact ⟨w, ds, hw, ⟨h2, h4 2 rfl, h3⟩, by rw [hs, h1]⟩

theorem numeric2_of {w ds r : Str} {n : Nat} (hw : Blank w) (hd : Digits 2 ds n) (hr : NoDigit r) :
    numeric2 (w ++ (ds ++ r)) = some (n, r) := by
  obtain ⟨h1, h2, rfl⟩ := hd
  rw [numeric2, dropWhile_blank w _ hw (digits_head ds r h1)]
  refine number_digits 2 ds r h1 h2 ?_ (.inl hr)
  have := decimal_lt ds ((isDigits_iff ds).1 h1).2
  have : 10 ^ ds.length ≤ 10 ^ 2 := Nat.pow_le_pow_right (by omega) h2
  omega

theorem numericYear_inv {s r : Str} {y : Int} (h : numericYear s = some (y, r)) :
    ∃ w ys, Blank w ∧ YearText ys y ∧ s = w ++ (ys ++ r) := by
  obtain ⟨w, hw, hs⟩ := trimStart_split s
  unfold numericYear at h
  split at h
  · rename_i r' ht
    obtain ⟨⟨n, r2⟩, h1, h2⟩ := Option.map_eq_some_iff.1 h
    cases h2
    obtain ⟨ds, rfl, h3, rfl, -⟩ := number_inv (by simp) h1
    exact ⟨w, '-' :: ds, hw, .minus ds h3, by rw [hs, ht]; rfl⟩
  · rename_i r' ht
    obtain ⟨⟨n, r2⟩, h1, h2⟩ := Option.map_eq_some_iff.1 h
    cases h2
    obtain ⟨ds, rfl, h3, rfl, -⟩ := number_inv (by simp) h1
    exact ⟨w, '+' :: ds, hw, .plus ds h3, by rw [hs, ht]; rfl⟩
  · obtain ⟨⟨n, r2⟩, h1, h2⟩ := Option.map_eq_some_iff.1 h
    cases h2
    obtain ⟨ds, h0, h3, rfl, h4, -⟩ := number_inv (by simp) h1
    exact ⟨w, ds, hw, .plain ds h3 (h4 4 rfl), by rw [hs, h0]⟩

theorem number_none (ds r : Str) (hd : IsDigits ds) (hb : decimal ds < 2 ^ 63) (hr : NoDigit r) :
    number none (ds ++ r) = some (decimal ds, r) := by
  obtain ⟨h1, h2⟩ := (isDigits_iff ds).1 hd
  rw [number_cons _ _ _ h1 h2, digits_none ds r 0 h2 (by rw [val_eq_decimal]; exact hb), val_eq_decimal]
  exact digits_stop _ _ _ hr

theorem numericYear_of {w ys r : Str} {y : Int} (hw : Blank w) (hy : YearText ys y)
    (hb : y.natAbs < 2 ^ 63) (hr : NoDigit r) : numericYear (w ++ (ys ++ r)) = some (y, r) := by
  unfold numericYear
  cases hy with
  | plus ds h =>
    rw [dropWhile_blank w _ hw (by intro c hc; cases hc; rfl)]
    simp only [List.cons_append]
    rw [number_none ds r h (by omega) hr]; rfl
  | minus ds h =>
    rw [dropWhile_blank w _ hw (by intro c hc; cases hc; rfl)]
    simp only [List.cons_append]
    rw [number_none ds r h (by omega) hr]; rfl
  | plain _ h hl =>
    rw [dropWhile_blank w _ hw (digits_head ys r h)]
    have hn := number_digits 4 ys r h hl (by omega) (.inl hr)
    obtain ⟨h1, h2⟩ := (isDigits_iff ys).1 h
    cases ys with
    | nil => exact absurd rfl h1
    | cons c ys =>
      have hc := h2 c (by simp)
      rw [List.cons_append] at *
      split
      · rename_i he; cases he; exact absurd hc (by decide)
      · rename_i he; cases he; exact absurd hc (by decide)
      · rw [hn]; rfl

/-! ### Fractions and offsets -/

theorem noDigit_of_not {r : Str} (h : ∀ c ∈ r.head?, ¬ Json.isDigit c = true) : NoDigit r :=
  fun c hc => by simpa using h c hc

theorem dropWhile_digits (ds r : Str) (h : ∀ c ∈ ds, Json.isDigit c = true) (hr : NoDigit r) :
    (ds ++ r).dropWhile Json.isDigit = r := by
  induction ds with
  | nil =>
    cases r with
    | nil => rfl
    | cons c r => simp [hr c rfl]
  | cons c ds ih =>
    rw [List.cons_append, List.dropWhile_cons_of_pos (h c (by simp))]
    exact ih fun c hc => h c (by simp [hc])

theorem nanosecond_inv {s r : Str} {ns : Nat} (h : nanosecond s = some (ns, r)) :
    ∃ frac, Rfc3339Fraction frac ns ∧ s = frac ++ r := by
  unfold nanosecond at h
  split at h
  · rename_i s
    split at h
    · rename_i n r' hn
      cases h
      obtain ⟨ds, rfl, h1, rfl, h3, h4⟩ := number_inv (by simp) hn
      have hl := h3 9 rfl
      refine ⟨'.' :: (ds ++ r'.takeWhile Json.isDigit), ?_, ?_⟩
      · have hd : IsDigits (ds ++ r'.takeWhile Json.isDigit) := by
          obtain ⟨a, b⟩ := (isDigits_iff ds).1 h1
          refine (isDigits_iff _).2 ⟨by simp [a], ?_⟩
          intro c hc
          rcases List.mem_append.1 hc with hc | hc
          · exact b c hc
          · exact List.all_eq_true.1 List.all_takeWhile c hc
        have ht : (ds ++ r'.takeWhile Json.isDigit).take 9 = ds := by
          rcases h4 with h4 | h4
          · have : r'.takeWhile Json.isDigit = [] := by
              cases r' with
              | nil => rfl
              | cons c r' => simp [h4 c rfl]
            rw [this, List.append_nil, List.take_of_length_le hl]
          · simp only [Option.some.injEq] at h4
            rw [List.take_append_of_le_length (by omega), List.take_of_length_le hl]
        have := Rfc3339Fraction.some _ hd
        rw [nanos, ht] at this
        rw [show (ds ++ r').length - r'.length = ds.length by simp]
        exact this
      · simp [List.takeWhile_append_dropWhile]
    · cases h
  · cases h
    exact ⟨[], .none, rfl⟩

theorem nanosecond_of {frac r : Str} {ns : Nat} (h : Rfc3339Fraction frac ns) (hr : NoDigit r)
    (hdot : ∀ c ∈ r.head?, c ≠ '.') : nanosecond (frac ++ r) = some (ns, r) := by
  cases h with
  | none =>
    rw [List.nil_append]
    unfold nanosecond
    split
    · exact absurd rfl (hdot '.' rfl)
    · rfl
  | some ds h =>
    obtain ⟨h1, h2⟩ := (isDigits_iff ds).1 h
    rw [List.cons_append, nanosecond]
    have htake : ∀ c ∈ ds.take 9, Json.isDigit c = true := fun c hc => h2 c (List.mem_of_mem_take hc)
    have hne : ds.take 9 ≠ [] := by cases ds <;> simp at h1 ⊢
    have hb : decimal (ds.take 9) < 2 ^ 63 := by
      have := decimal_lt _ htake
      have : 10 ^ (ds.take 9).length ≤ 10 ^ 9 := Nat.pow_le_pow_right (by omega) (by simp)
      omega
    have hn : number (some 9) (ds ++ r) = some (decimal (ds.take 9), ds.drop 9 ++ r) := by
      have := number_digits 9 (ds.take 9) (ds.drop 9 ++ r) ((isDigits_iff _).2 ⟨hne, htake⟩) (by simp) hb ?_
      · rwa [← List.append_assoc, List.take_append_drop] at this
      · by_cases hl : ds.length ≤ 9
        · left; rw [List.drop_of_length_le hl]; exact hr
        · right; rw [List.length_take]; omega
    rw [hn]
    simp only [Option.some.injEq, Prod.mk.injEq]
    constructor
    · rw [nanos]
      congr 2
      simp only [List.length_append, List.length_drop, List.length_take]
      omega
    · exact dropWhile_digits _ _ (fun c hc => h2 c (List.mem_of_mem_drop hc)) hr

theorem two_digits {ds : Str} (h : IsDigits ds) (hl : ds.length = 2) :
    ∃ a b, ds = [a, b] ∧ Json.isDigit a = true ∧ Json.isDigit b = true ∧
      decimal ds = (a.toNat - 48) * 10 + (b.toNat - 48) := by
  obtain ⟨-, h2⟩ := (isDigits_iff ds).1 h
  match ds, hl with
  | [a, b], _ =>
    refine ⟨a, b, rfl, h2 a (by simp), h2 b (by simp), ?_⟩
    rw [← val_eq_decimal]
    simp [val]

theorem isDigits_two {a b : Char} (ha : Json.isDigit a = true) (hb : Json.isDigit b = true) :
    IsDigits [a, b] := (isDigits_iff _).2 ⟨by simp, by simp [ha, hb]⟩

theorem offsetMinutes_iff {s r : Str} {m : Nat} : offsetMinutes s = some (m, r) ↔
    ∃ ds, IsDigits ds ∧ ds.length = 2 ∧ decimal ds ≤ 59 ∧ m = decimal ds ∧ s = ds ++ r := by
  constructor
  · intro h
    unfold offsetMinutes at h
    split at h
    · rename_i a b r'
      split at h
      · rename_i hc
        cases h
        obtain ⟨h1, h2, h3⟩ := hc
        have ha : Json.isDigit a = true := by
          simp only [Json.isDigit, Bool.and_eq_true, decide_eq_true_eq]; omega
        obtain ⟨_, _, he, -, -, hv⟩ := two_digits (isDigits_two ha h3) rfl
        cases he
        have hb := h3
        simp only [Json.isDigit, Bool.and_eq_true, decide_eq_true_eq] at hb
        exact ⟨[a, b], isDigits_two ha h3, rfl, by rw [hv]; omega, hv.symm, rfl⟩
      · cases h
    · cases h
  · rintro ⟨ds, h1, h2, h3, rfl, rfl⟩
    obtain ⟨a, b, rfl, ha, hb, hv⟩ := two_digits h1 h2
    rw [hv] at h3
    have ha' := ha
    simp only [Json.isDigit, Bool.and_eq_true, decide_eq_true_eq] at ha'
    have hc : 48 ≤ a.toNat ∧ a.toNat ≤ 53 ∧ Json.isDigit b = true := ⟨ha'.1, by omega, hb⟩
    simp only [List.cons_append, List.nil_append, offsetMinutes, if_pos hc, hv]

/-- Colons and white space. -/
def isGap (c : Char) : Bool := c == ':' || isWhitespace c

theorem gap_split (s : Str) : ∃ gap, (∀ c ∈ gap, c = ':' ∨ WhiteSpace c) ∧ s = gap ++ s.dropWhile isGap := by
  refine ⟨s.takeWhile isGap, fun c hc => ?_, (List.takeWhile_append_dropWhile ..).symm⟩
  have := List.all_eq_true.1 List.all_takeWhile c hc
  simpa [isGap, isWhitespace_iff] using this

theorem gap_drop (gap ds r : Str) (hg : ∀ c ∈ gap, c = ':' ∨ WhiteSpace c) (hd : IsDigits ds) :
    (gap ++ (ds ++ r)).dropWhile isGap = ds ++ r := by
  induction gap with
  | nil =>
    obtain ⟨h1, h2⟩ := (isDigits_iff ds).1 hd
    cases ds with
    | nil => exact absurd rfl h1
    | cons c ds =>
      have hc := h2 c (by simp)
      have hw := isDigit_notWs hc
      have : isGap c = false := by
        simp only [isGap, hw, Bool.or_false, beq_eq_false_iff_ne]
        rintro rfl
        exact absurd hc (by decide)
      rw [List.nil_append, List.cons_append, List.dropWhile_cons_of_neg (by simp [this])]
  | cons c gap ih =>
    rw [List.cons_append, List.dropWhile_cons_of_pos]
    · exact ih fun c hc => hg c (by simp [hc])
    · simpa [isGap, isWhitespace_iff] using hg c (by simp)

theorem offset_inv {s r : Str} {off : Int} (h : offset s = some (off, r)) :
    ∃ z, Zone z off ∧ s = z ++ r := by
  unfold offset at h
  split at h
  · rename_i sign a b rest
    split at h
    · rename_i hc
      obtain ⟨hs, ha, hb⟩ := hc
      obtain ⟨gap, hg, hrest⟩ := gap_split rest
      have hfun : (fun c : Char => c == ':' || isWhitespace c) = isGap := rfl
      rw [hfun] at h
      split at h
      · rename_i m r' hm
        obtain ⟨ds, h1, h2, h3, rfl, h5⟩ := offsetMinutes_iff.1 hm
        obtain ⟨_, _, he, -, -, hv⟩ := two_digits (isDigits_two ha hb) rfl
        cases he
        cases h
        have hz : ((a.toNat : Int) - 48) * 10 + ((b.toNat : Int) - 48) =
            (((a.toNat - 48) * 10 + (b.toNat - 48) : Nat) : Int) := by
          simp only [Json.isDigit, Bool.and_eq_true, decide_eq_true_eq] at ha hb
          omega
        simp only [hz]
        refine ⟨sign :: ([a, b] ++ (gap ++ ds)), ?_, by rw [hrest, h5]; simp⟩
        rcases hs with rfl | rfl
        · have := Zone.east [a, b] gap ds (isDigits_two ha hb) h1 rfl h2 h3 hg
          rw [hv] at this
          simpa using this
        · have := Zone.west [a, b] gap ds (isDigits_two ha hb) h1 rfl h2 h3 hg
          rw [hv] at this
          simpa using this
      · cases h
    · cases h
  · cases h

theorem offset_of {sign : Char} {h gap m r : Str} (hs : sign = '+' ∨ sign = '-') (hh : IsDigits h)
    (hm : IsDigits m) (hl : h.length = 2) (hl' : m.length = 2) (h59 : decimal m ≤ 59)
    (hg : ∀ c ∈ gap, c = ':' ∨ WhiteSpace c) :
    offset (sign :: (h ++ (gap ++ m)) ++ r) =
      some (if sign = '-' then -((decimal h * 3600 + decimal m * 60 : Nat) : Int)
        else ((decimal h * 3600 + decimal m * 60 : Nat) : Int), r) := by
  obtain ⟨a, b, rfl, ha, hb, hv⟩ := two_digits hh hl
  have hz : ((a.toNat : Int) - 48) * 10 + ((b.toNat : Int) - 48) =
      (((a.toNat - 48) * 10 + (b.toNat - 48) : Nat) : Int) := by
    simp only [Json.isDigit, Bool.and_eq_true, decide_eq_true_eq] at ha hb
    omega
  have hc : (sign = '+' ∨ sign = '-') ∧ Json.isDigit a = true ∧ Json.isDigit b = true := ⟨hs, ha, hb⟩
  have hfun : (fun c : Char => c == ':' || isWhitespace c) = isGap := rfl
  simp only [List.cons_append, List.nil_append, offset, if_pos hc, List.append_assoc, hfun,
    gap_drop gap m r hg hm, offsetMinutes_iff.2 ⟨m, hm, hl', h59, rfl, rfl⟩, hv, hz]
  push_cast
  rfl

theorem zulu_inv {s r : Str} {off : Int} (h : zulu s = some (off, r)) : ∃ z, Zone z off ∧ s = z ++ r := by
  unfold zulu at h
  split at h
  · rename_i c r'
    split at h
    · rename_i hc
      cases h
      exact ⟨[c], .zulu c (by simpa using hc), rfl⟩
    split at h
    · rename_i hu
      split at h
      · rename_i t u r2
        split at h
        · rename_i htu
          cases h
          exact ⟨[c, t, u], .utc c t u (by simpa using hu) (by simpa using htu.1) (by simpa using htu.2), rfl⟩
        · cases h
      · cases h
    · exact offset_inv h
  · cases h

theorem zulu_of {z r : Str} {off : Int} (h : Zone z off) : zulu (z ++ r) = some (off, r) := by
  cases h with
  | zulu c hc =>
    have : c = 'z' ∨ c = 'Z' := by simpa using hc
    simp [zulu, this]
  | utc u t c hu ht hc =>
    have h1 : u = 'u' ∨ u = 'U' := by simpa using hu
    have h2 : (t = 't' ∨ t = 'T') ∧ (c = 'c' ∨ c = 'C') := ⟨by simpa using ht, by simpa using hc⟩
    have h0 : ¬ (u = 'z' ∨ u = 'Z') := by rcases h1 with rfl | rfl <;> decide
    simp only [zulu, List.cons_append, List.nil_append, if_neg h0, if_pos h1, if_pos h2]
  | east h gap m hh hm hl hl' h59 hg =>
    have := offset_of (r := r) (.inl rfl : '+' = '+' ∨ '+' = '-') hh hm hl hl' h59 hg
    rw [if_neg (by decide)] at this
    rw [zulu.eq_def]
    simp only [List.cons_append] at this ⊢
    rw [if_neg (by decide), if_neg (by decide)]
    exact this
  | west h gap m hh hm hl hl' h59 hg =>
    have := offset_of (r := r) (.inr rfl : '-' = '+' ∨ '-' = '-') hh hm hl hl' h59 hg
    rw [if_pos rfl] at this
    rw [zulu.eq_def]
    simp only [List.cons_append] at this ⊢
    rw [if_neg (by decide), if_neg (by decide)]
    exact this

/-- The first character of an offset. -/
theorem zone_head {z : Str} {off : Int} (h : Zone z off) :
    ∃ c r, z = c :: r ∧ c ∈ ['z', 'Z', 'u', 'U', '+', '-'] := by
  cases h with
  | zulu c hc => exact ⟨c, [], rfl, by simp at hc ⊢; rcases hc with rfl | rfl <;> simp⟩
  | utc u t c hu => exact ⟨u, _, rfl, by simp at hu ⊢; rcases hu with rfl | rfl <;> simp⟩
  | east => exact ⟨'+', _, rfl, by simp⟩
  | west => exact ⟨'-', _, rfl, by simp⟩

theorem zone_facts {c : Char} (h : c ∈ ['z', 'Z', 'u', 'U', '+', '-']) :
    isWhitespace c = false ∧ Json.isDigit c = false ∧ c ≠ '.' := by
  simp only [List.mem_cons, List.not_mem_nil, or_false] at h
  rcases h with rfl | rfl | rfl | rfl | rfl | rfl <;> decide

theorem ws_facts {c : Char} (h : WhiteSpace c) : Json.isDigit c = false ∧ c ≠ '.' ∧ c ≠ ':' ∧ c ≠ '-' := by
  simp only [WhiteSpace, List.mem_cons, List.not_mem_nil, or_false] at h
  refine ⟨?_, ?_, ?_, ?_⟩
  · simp only [Json.isDigit, Bool.and_eq_false_iff, decide_eq_false_iff_not]; omega
  all_goals
    rintro rfl
    revert h
    decide

/-- White space and then a character that is no digit. -/
theorem noDigit_blank {w r : Str} (hw : Blank w) (hr : NoDigit r) : NoDigit (w ++ r) := by
  cases w with
  | nil => exact hr
  | cons c w => intro d hd; cases hd; exact (ws_facts (hw c (by simp))).1

theorem noDigit_cons {c : Char} {r : Str} (h : Json.isDigit c = false) : NoDigit (c :: r) := by
  intro d hd; cases hd; exact h

/-! ### Dates -/

theorem parseDate_inv {s r : Str} {x : Date} (h : parseDate s = some (x, r)) :
    ∃ date, DateText date x ∧ s = date ++ r := by
  simp only [parseDate, Option.bind_eq_bind, Option.bind_eq_some_iff, Prod.exists, Option.some.injEq,
    Prod.mk.injEq] at h
  obtain ⟨y, s1, h1, s2, h2, m, s3, h3, s4, h4, d, s5, h5, rfl, rfl⟩ := h
  obtain ⟨w0, ys, b0, t0, rfl⟩ := numericYear_inv h1
  obtain ⟨w1, b1, rfl⟩ := (separator_iff (by decide)).1 h2
  obtain ⟨w2, mo, b2, t2, rfl⟩ := numeric2_inv h3
  obtain ⟨w3, b3, rfl⟩ := (separator_iff (by decide)).1 h4
  obtain ⟨w4, ds, b4, t4, rfl⟩ := numeric2_inv h5
  exact ⟨_, ⟨w0, w1, w2, w3, w4, ys, mo, ds, b0, b1, b2, b3, b4, t0, t2, t4, rfl⟩, by simp⟩

theorem parseDate_of {date r : Str} {x : Date} (h : DateText date x) (hy : x.year.natAbs < 2 ^ 63)
    (hr : NoDigit r) : parseDate (date ++ r) = some (x, r) := by
  obtain ⟨w0, w1, w2, w3, w4, ys, mo, ds, b0, b1, b2, b3, b4, t0, t2, t4, rfl⟩ := h
  have hdash : ∀ w t : Str, Blank w → NoDigit (w ++ '-' :: t) := fun w t hw =>
    noDigit_blank hw (noDigit_cons (by decide))
  simp only [List.append_assoc, List.cons_append]
  rw [parseDate, numericYear_of b0 t0 hy (hdash _ _ b1)]
  simp only [Option.bind_eq_bind, Option.bind_some]
  rw [(separator_iff (by decide)).2 ⟨w1, b1, rfl⟩, Option.bind_some, numeric2_of b2 t2 (hdash _ _ b3)]
  simp only [Option.bind_some]
  rw [(separator_iff (by decide)).2 ⟨w3, b3, rfl⟩, Option.bind_some, numeric2_of b4 t4 hr]
  rfl

/-! ### Times of the day -/

theorem parseClock_iff {s : Str} {sod ns : Nat} {off : Int} : parseClock s = some (sod, ns, off, []) ↔
    ∃ h mi sec, ClockText s h mi sec ns off ∧ h ≤ 23 ∧ mi ≤ 59 ∧ sec ≤ 60 ∧ -86400 < off ∧ off < 86400 ∧
      sod = h * 3600 + mi * 60 + sec := by
  constructor
  · intro h
    simp only [parseClock, Option.bind_eq_bind, Option.bind_eq_some_iff, Prod.exists] at h
    obtain ⟨hh, s1, h1, s2, h2, mi, s3, h3, s4, h4, sec, s5, h5, n, s6, h6, o, s7, h7, h8⟩ := h
    split at h8
    · rename_i hc
      simp only [Option.some.injEq, Prod.mk.injEq] at h8
      obtain ⟨rfl, rfl, rfl, h8⟩ := h8
      obtain ⟨w0, hs, b0, t0, rfl⟩ := numeric2_inv h1
      obtain ⟨w1, b1, rfl⟩ := (separator_iff (by decide)).1 h2
      obtain ⟨w2, mis, b2, t2, rfl⟩ := numeric2_inv h3
      obtain ⟨w3, b3, rfl⟩ := (separator_iff (by decide)).1 h4
      obtain ⟨w4, ss, b4, t4, rfl⟩ := numeric2_inv h5
      obtain ⟨frac, tf, rfl⟩ := nanosecond_inv h6
      obtain ⟨w5, b5, e5⟩ := trimStart_split s6
      obtain ⟨z, tz, ez⟩ := zulu_inv h7
      obtain ⟨w6, b6, e6⟩ := trimStart_split s7
      rw [h8, List.append_nil] at e6
      refine ⟨hh, mi, sec, ⟨w0, w1, w2, w3, w4, w5, w6, hs, mis, ss, frac, z, b0, b1, b2, b3, b4, b5, b6,
        t0, t2, t4, tf, tz, ?_⟩, hc.1, hc.2.1, hc.2.2.1, hc.2.2.2.1, hc.2.2.2.2, rfl⟩
      rw [← e6, ← ez, ← e5]
    · cases h8
  · rintro ⟨hh, mi, sec, ⟨w0, w1, w2, w3, w4, w5, w6, hs, mis, ss, frac, z, b0, b1, b2, b3, b4, b5, b6,
      t0, t2, t4, tf, tz, rfl⟩, c1, c2, c3, c4, c5, rfl⟩
    have hcolon : ∀ w t : Str, Blank w → NoDigit (w ++ ':' :: t) := fun w t hw =>
      noDigit_blank hw (noDigit_cons (by decide))
    obtain ⟨c, zr, hz, hzc⟩ := zone_head tz
    obtain ⟨f1, f2, f3⟩ := zone_facts hzc
    have hzd : NoDigit (w5 ++ (z ++ w6)) := noDigit_blank b5 (by rw [hz]; exact noDigit_cons f2)
    have hzdot : ∀ c ∈ (w5 ++ (z ++ w6)).head?, c ≠ '.' := by
      cases w5 with
      | nil => rw [hz]; intro d hd; cases hd; exact f3
      | cons d w5 => intro e he; cases he; exact (ws_facts (b5 d (by simp))).2.1
    have hzw : ∀ c ∈ (z ++ w6).head?, isWhitespace c = false := by
      rw [hz]; intro d hd; cases hd; exact f1
    have hfd : NoDigit (frac ++ (w5 ++ (z ++ w6))) := by
      cases tf with
      | none => exact hzd
      | some ds => exact noDigit_cons (by decide)
    have hend : trimStart w6 = [] := by
      have := dropWhile_blank w6 [] b6 (by simp)
      rwa [List.append_nil] at this
    rw [parseClock, numeric2_of b0 t0 (hcolon _ _ b1)]
    simp only [Option.bind_eq_bind, Option.bind_some]
    rw [(separator_iff (by decide)).2 ⟨w1, b1, rfl⟩, Option.bind_some, numeric2_of b2 t2 (hcolon _ _ b3)]
    simp only [Option.bind_some]
    rw [(separator_iff (by decide)).2 ⟨w3, b3, rfl⟩, Option.bind_some, numeric2_of b4 t4 hfd]
    simp only [Option.bind_some]
    rw [nanosecond_of tf hzd hzdot]
    simp only [Option.bind_some]
    rw [dropWhile_blank w5 _ b5 hzw, zulu_of tz]
    simp only [Option.bind_some]
    rw [if_pos ⟨c1, c2, c3, c4, c5⟩, hend]

/-! ### Day numbers -/

theorem numbersDays_eq {f : Int → Date} (h : NumbersDays f) (n : Int) :
    numDaysFromCe (f n) = n + epochDay := by
  have step : ∀ n, numDaysFromCe (f (n + 1)) = numDaysFromCe (f n) + 1 := fun n => by
    rw [h.next]; exact numDays_next _ (h.isDate n)
  have pos : ∀ k : Nat, numDaysFromCe (f k) = k + epochDay := by
    intro k
    induction k with
    | zero =>
      have h0 : f ((0 : Nat) : Int) = ⟨1970, 1, 1⟩ := h.epoch
      rw [h0]; decide
    | succ k ih =>
      have := step k
      rw [ih] at this
      push_cast
      rw [this]; omega
  have neg : ∀ k : Nat, numDaysFromCe (f (-(k : Int))) = -(k : Int) + epochDay := by
    intro k
    induction k with
    | zero => simpa using pos 0
    | succ k ih =>
      have := step (-((k + 1 : Nat) : Int))
      rw [show -((k + 1 : Nat) : Int) + 1 = -(k : Int) by omega, ih] at this
      omega
  rcases Int.le_total 0 n with hn | hn
  · obtain ⟨k, rfl⟩ := Int.eq_ofNat_of_zero_le hn
    exact pos k
  · obtain ⟨k, hk⟩ := Int.eq_ofNat_of_zero_le (show 0 ≤ -n by omega)
    have := neg k
    rwa [show -(k : Int) = n by omega] at this

theorem dayNumber_iff (x : Date) (n : Int) : DayNumber x n ↔ IsDate x ∧ n = numDaysFromCe x - epochDay := by
  constructor
  · rintro ⟨f, hf, rfl⟩
    have := numbersDays_eq hf n
    exact ⟨hf.isDate n, by omega⟩
  · rintro ⟨hx, rfl⟩
    refine ⟨fun n => fromDaysFromCe (n + epochDay), ⟨by decide, fun n => ?_, fun n => fromDays_isDate _⟩, ?_⟩
    · rw [show n + 1 + epochDay = n + epochDay + 1 by omega]
      exact fromDays_next _
    · show fromDaysFromCe (numDaysFromCe x - epochDay + epochDay) = x
      rw [show numDaysFromCe x - epochDay + epochDay = numDaysFromCe x by omega]
      exact fromDays_numDays x hx

/-! ### Date-times -/

theorem parseTime_iff (s : Str) (t : Time) : parseTime s = some t ↔ InstantText s t := by
  constructor
  · intro h
    simp only [parseTime, Option.bind_eq_bind, Option.bind_eq_some_iff, Prod.exists] at h
    obtain ⟨x, s1, h1, h2⟩ := h
    obtain ⟨date, hd, rfl⟩ := parseDate_inv h1
    split at h2
    · rename_i c clock
      split at h2
      · rename_i hc
        simp only [Option.bind_eq_some_iff, Prod.exists] at h2
        obtain ⟨sod, ns, off, rest, h3, h4⟩ := h2
        split at h4
        · rename_i hv
          obtain ⟨rfl, hv, ht⟩ := hv
          cases h4
          obtain ⟨hh, mi, sec, hcl, c1, c2, c3, c4, c5, rfl⟩ := parseClock_iff.1 h3
          obtain ⟨v1, v2, v3⟩ := (validDate_iff x).1 hv
          exact ⟨date, clock, c, x, hh, mi, sec, ns, off, _, rfl, hd, by simpa using hc, hcl, c1, c2, c3, c4, c5,
            v1, v2, v3, (dayNumber_iff x _).2 ⟨v1, rfl⟩, rfl, ht⟩
        · cases h4
      · cases h2
    · cases h2
  · rintro ⟨date, clock, c, x, hh, mi, sec, ns, off, day, rfl, hd, hc, hcl, c1, c2, c3, c4, c5, v1, v2, v3,
      hday, rfl, ht⟩
    obtain ⟨-, rfl⟩ := (dayNumber_iff x day).1 hday
    have hc' : c = 'T' ∨ c = ' ' := by simpa using hc
    have hcd : Json.isDigit c = false := by rcases hc' with rfl | rfl <;> decide
    rw [parseTime, parseDate_of hd (by omega) (noDigit_cons hcd)]
    simp only [Option.bind_eq_bind, Option.bind_some]
    rw [if_pos hc', parseClock_iff.2 ⟨hh, mi, sec, hcl, c1, c2, c3, c4, c5, rfl⟩]
    simp only [Option.bind_some]
    rw [if_pos ⟨trivial, (validDate_iff x).2 ⟨v1, v2, v3⟩, ht⟩]
    rfl

end Chrono
end Oid4vci
