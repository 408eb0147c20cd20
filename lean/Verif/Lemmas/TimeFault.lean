import Verif.Lemmas.Instant
import Verif.Lemmas.Leap
import Verif.Spec.TimeFault
import Verif.Model.TimeError

/-! The items of the date-time parser and their errors, as relations. -/

namespace Oid4vci
namespace Chrono

open Spec

theorem text_inj {e e' : ParseError} (h : e.text = e'.text) : e = e' := by
  cases e <;> cases e' <;> first | rfl | exact absurd h (by decide)

/-! ### Numbers -/

theorem isDigits_one {c : Char} : IsDigits [c] ↔ Json.isDigit c = true := by
  rw [isDigits_iff]; simp

theorem scanNumber_ok {max : Option Nat} {s : Str} {v : Nat × Str} :
    scanNumber max s = .ok v ↔ number max s = some v := by
  unfold scanNumber number
  cases s with
  | nil => simp
  | cons c s =>
    simp only
    split
    · cases digits max (c :: s) 0 <;> simp
    · simp

theorem digits_over (ds rest : Str) : ∀ (acc : Nat), (∀ c ∈ ds, Json.isDigit c = true) → acc < 2 ^ 63 →
    2 ^ 63 ≤ val acc ds → digits none (ds ++ rest) acc = none := by
  induction ds with
  | nil => intro acc _ h h'; simp only [val, List.foldl_nil] at h'; omega
  | cons c ds ih =>
    intro acc h ha hv
    have hc := h c (by simp)
    rw [List.cons_append, digits, if_pos hc]
    · by_cases hb : acc * 10 + (c.toNat - 48) < 2 ^ 63
      · simp only [Option.map_none]
        rw [if_pos hb]
        exact ih _ (fun c hc => h c (by simp [hc])) hb hv
      · simp only
        rw [if_neg hb]
    · simp

/-- The digits at the front of a text. -/
theorem digits_split (s : Str) : ∃ ds r, s = ds ++ r ∧ (∀ c ∈ ds, Json.isDigit c = true) ∧ NoDigit r := by
  refine ⟨s.takeWhile Json.isDigit, s.dropWhile Json.isDigit, (List.takeWhile_append_dropWhile ..).symm,
    fun c hc => List.all_eq_true.1 List.all_takeWhile c hc, ?_⟩
  intro c hc
  have := List.head?_dropWhile_not Json.isDigit s
  rw [Option.mem_def.1 hc] at this
  simpa using this

/-- Numbers of bounded width. -/
theorem scanNumber_some {k : Nat} (hk : 0 < k) (hk' : k ≤ 9) (s : Str) :
    (s = [] ∧ scanNumber (some k) s = .error .tooShort) ∨
    (∃ c r, s = c :: r ∧ Json.isDigit c = false ∧ scanNumber (some k) s = .error .invalid) ∨
    ∃ ds r, s = ds ++ r ∧ IsDigits ds ∧ ds.length ≤ k ∧ (NoDigit r ∨ ds.length = k) ∧
      scanNumber (some k) s = .ok (decimal ds, r) := by
  cases s with
  | nil => exact .inl ⟨rfl, rfl⟩
  | cons c s =>
    right
    by_cases hc : Json.isDigit c = true
    · right
      obtain ⟨ds, r, e, hd, hr⟩ := digits_split (c :: s)
      have hne : ds ≠ [] := by
        rintro rfl
        rw [List.nil_append] at e
        subst e
        rw [hr c rfl] at hc
        cases hc
      have key : ∀ ds' r', c :: s = ds' ++ r' → IsDigits ds' → ds'.length ≤ k → (NoDigit r' ∨ ds'.length = k) →
          scanNumber (some k) (c :: s) = .ok (decimal ds', r') := by
        intro ds' r' e h1 h2 h3
        rw [scanNumber_ok, e]
        refine number_digits k ds' r' h1 h2 ?_ h3
        have := decimal_lt ds' ((isDigits_iff ds').1 h1).2
        have : 10 ^ ds'.length ≤ 10 ^ 9 := Nat.pow_le_pow_right (by omega) (by omega)
        omega
      by_cases hl : ds.length ≤ k
      · have h1 := (isDigits_iff ds).2 ⟨hne, hd⟩
        exact ⟨ds, r, e, h1, hl, .inl hr, key ds r e h1 hl (.inl hr)⟩
      · have e' : c :: s = ds.take k ++ (ds.drop k ++ r) := by rw [← List.append_assoc, List.take_append_drop, e]
        have hlen : (ds.take k).length = k := by rw [List.length_take]; omega
        have h1 : IsDigits (ds.take k) := (isDigits_iff _).2
          ⟨fun h => by rw [h] at hlen; simp at hlen; omega, fun c hc => hd c (List.mem_of_mem_take hc)⟩
        exact ⟨_, _, e', h1, by omega, .inr hlen, key _ _ e' h1 (by omega) (.inr hlen)⟩
    · left
      have hc : Json.isDigit c = false := by simpa using hc
      exact ⟨c, s, rfl, hc, by simp [scanNumber, hc]⟩

/-- Numbers of any width. -/
theorem scanNumber_none (s : Str) :
    (s = [] ∧ scanNumber none s = .error .tooShort) ∨
    (∃ c r, s = c :: r ∧ Json.isDigit c = false ∧ scanNumber none s = .error .invalid) ∨
    ∃ ds r, s = ds ++ r ∧ IsDigits ds ∧ NoDigit r ∧
      scanNumber none s = if decimal ds < 2 ^ 63 then .ok (decimal ds, r) else .error .outOfRange := by
  cases s with
  | nil => exact .inl ⟨rfl, rfl⟩
  | cons c s =>
    right
    by_cases hc : Json.isDigit c = true
    · right
      obtain ⟨ds, r, e, hd, hr⟩ := digits_split (c :: s)
      have hne : ds ≠ [] := by
        rintro rfl
        rw [List.nil_append] at e
        subst e
        rw [hr c rfl] at hc
        cases hc
      refine ⟨ds, r, e, (isDigits_iff ds).2 ⟨hne, hd⟩, hr, ?_⟩
      split
      · rename_i hb
        rw [scanNumber_ok, e]
        exact number_none ds r ((isDigits_iff ds).2 ⟨hne, hd⟩) hb hr
      · rename_i hb
        simp only [scanNumber]
        rw [if_pos hc, e, digits_over ds r 0 hd (by decide) (by rw [val_eq_decimal]; omega)]
    · left
      have hc : Json.isDigit c = false := by simpa using hc
      exact ⟨c, s, rfl, hc, by simp [scanNumber, hc]⟩

/-! ### Parts -/

/-- A part of a date-time. -/
def scanPart : Part → Str → Except ParseError Str
  | .blank, s => .ok (trimStart s)
  | .mark c, s => scanItem (.literal c) s
  | .year, s => scanYear s
  | .number, s => do let (_, r) ← scanNumber (some 2) s; pure r
  | .fraction, s => scanFraction s
  | .zone, s => scanZone s

/-- What is known of a part: it is there, or it has an error. -/
def Known (p : Part) (s : Str) : Prop :=
  (∃ t r, s = t ++ r ∧ PartText p t ∧ Ended p t r ∧ scanPart p s = .ok r) ∨
  ∃ e, PartFault p s e.text ∧ scanPart p s = .error e

theorem known_blank (s : Str) : Known .blank s := by
  obtain ⟨w, hw, hs⟩ := trimStart_split s
  refine .inl ⟨w, trimStart s, hs, .blank w hw, ?_, rfl⟩
  intro c hc
  have := List.head?_dropWhile_not isWhitespace s
  rw [← trimStart, Option.mem_def.1 hc] at this
  rw [← isWhitespace_iff]
  simpa using this

theorem known_mark (c : Char) (s : Str) : Known (.mark c) s := by
  cases s with
  | nil => exact .inr ⟨.tooShort, .markEnd c, rfl⟩
  | cons d r =>
    by_cases h : d = c
    · subst h
      exact .inl ⟨[d], r, rfl, .mark d, trivial, by simp [scanPart, scanItem]⟩
    · exact .inr ⟨.invalid, .markOther c d r h, by simp [scanPart, scanItem, h]⟩

theorem known_number (s : Str) : Known .number s := by
  rcases scanNumber_some (k := 2) (by decide) (by decide) s with ⟨rfl, h⟩ | ⟨c, r, rfl, hc, h⟩ | ⟨ds, r, rfl, hd, hl, hr, h⟩
  · exact .inr ⟨.tooShort, .numberEnd, by simp only [scanPart, h]; rfl⟩
  · exact .inr ⟨.invalid, .numberOther c r (by simp [isDigits_one, hc]), by simp only [scanPart, h]; rfl⟩
  · refine .inl ⟨ds, r, rfl, .number ds _ ⟨hd, hl, rfl⟩, ?_, by simp only [scanPart, h]; rfl⟩
    rintro ⟨c, hc, h1⟩
    rcases hr with hr | hr
    · rw [isDigits_one, hr c hc] at h1; cases h1
    · exact hr

theorem scanYear_plain {s : Str} (h : ∀ c ∈ s.head?, c ≠ '+' ∧ c ≠ '-') :
    scanYear s = (do let (n, r) ← scanNumber (some 4) s; setYear n r) := by
  unfold scanYear
  split
  · exact absurd rfl (h _ rfl).2
  · exact absurd rfl (h _ rfl).1
  · rfl

theorem setYear_eq (y : Int) (r : Str) :
    setYear y r = if -2 ^ 31 ≤ y ∧ y < 2 ^ 31 then .ok r else .error .outOfRange := by
  unfold setYear
  congr 1
  simp only [eq_iff_iff]
  omega

theorem known_signed {c : Char} {r : Str} (hc : c = '+' ∨ c = '-') : Known .year (c :: r) := by
  have hm : c ∈ ['+', '-'] := by simpa using hc
  have hscan : scanYear (c :: r) = (do
      let (n, r) ← scanNumber none r
      setYear (if c = '-' then -(n : Int) else n) r) := by
    rcases hc with rfl | rfl <;> rfl
  rcases scanNumber_none r with ⟨rfl, h⟩ | ⟨d, r, rfl, hd, h⟩ | ⟨ds, r, rfl, hd, hr, h⟩
  · exact .inr ⟨.tooShort, .yearSignEnd c hm, by simp only [scanPart, hscan, h]; rfl⟩
  · exact .inr ⟨.invalid, .yearSignOther c d r hm (by simp [isDigits_one, hd]), by simp only [scanPart, hscan, h]; rfl⟩
  · have hy : YearText (c :: ds) (if c = '-' then -(decimal ds : Int) else decimal ds) := by
      rcases hc with rfl | rfl
      · exact .plus ds hd
      · exact .minus ds hd
    have hr' : ∀ d ∈ r.head?, ¬ IsDigits [d] := fun d h' h1 => by
      rw [isDigits_one, hr d h'] at h1; cases h1
    by_cases hb : decimal ds < 2 ^ 63
    · have hs : scanYear (c :: (ds ++ r)) = setYear (if c = '-' then -(decimal ds : Int) else decimal ds) r := by
        rw [hscan, h, if_pos hb]; rfl
      generalize (if c = '-' then -(decimal ds : Int) else (decimal ds : Int)) = y at hs hy
      rw [setYear_eq] at hs
      by_cases hy' : -2 ^ 31 ≤ y ∧ y < 2 ^ 31
      · rw [if_pos hy'] at hs
        exact .inl ⟨c :: ds, r, rfl, .year _ _ hy hy'.1 hy'.2, fun ⟨d, h1, h2⟩ => absurd h2 (hr' d h1), hs⟩
      · rw [if_neg hy'] at hs
        exact .inr ⟨.outOfRange, .yearRange (c :: ds) r _ hy hr' (by omega), hs⟩
    · refine .inr ⟨.outOfRange, .yearRange (c :: ds) r _ hy hr' ?_, ?_⟩
      · split <;> omega
      · simp only [scanPart]
        rw [hscan, h, if_neg hb]
        rfl

theorem known_year (s : Str) : Known .year s := by
  cases s with
  | nil => exact .inr ⟨.tooShort, .yearEnd, rfl⟩
  | cons c s =>
    by_cases hc : c = '+' ∨ c = '-'
    · exact known_signed hc
    · have hm : c ∉ ['+', '-'] := by simpa using hc
      have hscan := scanYear_plain (s := c :: s) (by intro d hd; cases hd; exact not_or.1 hc)
      rcases scanNumber_some (k := 4) (by decide) (by decide) (c :: s) with ⟨h0, -⟩ | ⟨d, r, e, hd, h⟩ | ⟨ds, r, e, hd, hl, hr, h⟩
      · cases h0
      · cases e
        exact .inr ⟨.invalid, .yearOther c s hm (by simp [isDigits_one, hd]), by simp only [scanPart, hscan, h]; rfl⟩
      · have hb : decimal ds < 10 ^ 4 := by
          have := decimal_lt ds ((isDigits_iff ds).1 hd).2
          have : 10 ^ ds.length ≤ 10 ^ 4 := Nat.pow_le_pow_right (by omega) hl
          omega
        refine .inl ⟨ds, r, e, .year ds _ (.plain ds hd hl) (by omega) (by omega), ?_, ?_⟩
        · rintro ⟨d, h1, h2⟩
          rcases hr with hr | hr
          · rw [isDigits_one, hr d h1] at h2; cases h2
          · exact ⟨hd, hr⟩
        · simp only [scanPart]
          rw [hscan, h]
          show setYear _ _ = _
          rw [setYear_eq, if_pos (by omega)]

theorem known_fraction (s : Str) : Known .fraction s := by
  by_cases hdot : s.head? = some '.'
  · obtain ⟨s, rfl⟩ : ∃ r, s = '.' :: r := by
      cases s with
      | nil => cases hdot
      | cons c r => cases hdot; exact ⟨r, rfl⟩
    rcases scanNumber_some (k := 9) (by decide) (by decide) s with ⟨rfl, h⟩ | ⟨c, r, rfl, hc, h⟩ | ⟨ds, r, rfl, hd, hl, hr, h⟩
    · exact .inr ⟨.tooShort, .fractionEnd, by simp only [scanPart, scanFraction, h]; rfl⟩
    · exact .inr ⟨.invalid, .fractionOther c r (by simp [isDigits_one, hc]), by simp only [scanPart, scanFraction, h]; rfl⟩
    · have hs : scanFraction ('.' :: (ds ++ r)) = .ok (r.dropWhile Json.isDigit) := by
        simp only [scanFraction, h]; rfl
      have hd' : IsDigits (ds ++ r.takeWhile Json.isDigit) := by
        obtain ⟨h1, h2⟩ := (isDigits_iff ds).1 hd
        refine (isDigits_iff _).2 ⟨by simp [h1], fun c hc => ?_⟩
        rcases List.mem_append.1 hc with hc | hc
        · exact h2 c hc
        · exact List.all_eq_true.1 List.all_takeWhile c hc
      refine .inl ⟨'.' :: (ds ++ r.takeWhile Json.isDigit), r.dropWhile Json.isDigit, ?_, .fraction _ _ (.some _ hd'),
        ⟨by simp, fun _ c hc h1 => ?_⟩, hs⟩
      · simp [List.takeWhile_append_dropWhile]
      · have := List.head?_dropWhile_not Json.isDigit r
        rw [Option.mem_def.1 hc] at this
        rw [isDigits_one] at h1
        simp [h1] at this
  · refine .inl ⟨[], s, rfl, .fraction [] 0 .none, ⟨fun _ => hdot, fun h => absurd rfl h⟩, ?_⟩
    simp only [scanPart]
    unfold scanFraction
    split
    · exact absurd rfl hdot
    · rfl

/-! ### Offsets -/

theorem short_iff (s : Str) : Short s ↔ s = [] ∨ ∃ c, s = [c] ∧ c.toNat < 128 := by
  have hc : ∀ c : Char, 1 ≤ (utf8EncodeChar c).length ∧ ((utf8EncodeChar c).length < 2 ↔ c.toNat < 128) := by
    intro c
    unfold utf8EncodeChar
    simp only
    split
    · rename_i h; simp; omega
    · rename_i h
      split
      · simp; omega
      · split <;> (simp; omega)
  unfold Short utf8Encode
  match s with
  | [] => simp
  | [c] => simp [(hc c).2]
  | a :: b :: r =>
    have := (hc a).1
    have := (hc b).1
    simp
    omega

theorem twoDigits_iff {a b : Char} {r : Str} : TwoDigits (a :: b :: r) ↔ Json.isDigit a = true ∧ Json.isDigit b = true := by
  constructor
  · rintro ⟨ds, r', e, hd, hl⟩
    obtain ⟨a', b', rfl, ha, hb, -⟩ := two_digits hd hl
    cases e
    exact ⟨ha, hb⟩
  · rintro ⟨ha, hb⟩
    exact ⟨[a, b], r, rfl, isDigits_two ha hb, rfl⟩

theorem twoDigits_length {s : Str} (h : TwoDigits s) : 2 ≤ s.length := by
  obtain ⟨a, r, rfl, -, hl⟩ := h
  simp; omega

/-- The next two octets, and whether they are digits. -/
theorem twoOctets_cases (s : Str) :
    (Short s ∧ twoOctets s = .error .tooShort) ∨
    (¬ Short s ∧ ¬ TwoDigits s ∧ (twoOctets s = .error .invalid ∨
      ∃ a b r, twoOctets s = .ok (a, b, r) ∧ ¬ (Json.isDigit a = true ∧ Json.isDigit b = true))) ∨
    ∃ a b r, s = [a, b] ++ r ∧ Json.isDigit a = true ∧ Json.isDigit b = true ∧ twoOctets s = .ok (a, b, r) := by
  match s with
  | [] => exact .inl ⟨(short_iff _).2 (.inl rfl), rfl⟩
  | [c] =>
    by_cases hc : c.toNat < 128
    · exact .inl ⟨(short_iff _).2 (.inr ⟨c, rfl, hc⟩), by simp [twoOctets, hc]⟩
    · refine .inr (.inl ⟨?_, fun h => ?_, .inl (by simp [twoOctets, hc])⟩)
      · rw [short_iff]
        simpa using hc
      · have := twoDigits_length h
        simp at this
  | a :: b :: r =>
    by_cases hd : Json.isDigit a = true ∧ Json.isDigit b = true
    · exact .inr (.inr ⟨a, b, r, rfl, hd.1, hd.2, rfl⟩)
    · refine .inr (.inl ⟨?_, by rw [twoDigits_iff]; exact hd, .inr ⟨a, b, r, rfl, hd⟩⟩)
      rw [short_iff]
      simp

theorem gap_end (s : Str) : ∃ gap r, s = gap ++ r ∧ (∀ c ∈ gap, c = ':' ∨ WhiteSpace c) ∧
    (∀ d ∈ r.head?, ¬ (d = ':' ∨ WhiteSpace d)) ∧ s.dropWhile (fun c => c == ':' || isWhitespace c) = r := by
  obtain ⟨gap, hg, e⟩ := gap_split s
  refine ⟨gap, s.dropWhile isGap, e, hg, fun d hd h => ?_, rfl⟩
  have := List.head?_dropWhile_not isGap s
  rw [Option.mem_def.1 hd] at this
  simp [isGap] at this
  rcases h with h | h
  · exact this.1 h
  · rw [(isWhitespace_iff d).2 h] at this
    cases this.2

theorem known_offset {c : Char} {s : Str} (hc : c = '+' ∨ c = '-') : Known .zone (c :: s) := by
  have hm : c ∈ ['+', '-'] := by simpa using hc
  have hscan : scanPart .zone (c :: s) = scanOffset s := by
    rcases hc with rfl | rfl <;> rfl
  rcases twoOctets_cases s with ⟨h1, h2⟩ | ⟨h1, h2, h3⟩ | ⟨a, b, r, rfl, ha, hb, h2⟩
  · exact .inr ⟨.tooShort, .hoursEnd c s hm h1, by rw [hscan, scanOffset, h2]; rfl⟩
  · refine .inr ⟨.invalid, .hoursOther c s hm h1 h2, ?_⟩
    rw [hscan, scanOffset]
    rcases h3 with h3 | ⟨a, b, r, h3, h4⟩
    · rw [h3]; rfl
    · rw [h3]
      show (if _ then _ else _) = _
      rw [if_neg h4]
  · have hh : IsDigits [a, b] := isDigits_two ha hb
    obtain ⟨gap, r', rfl, hg, hr, hdrop⟩ := gap_end r
    have hstep : scanOffset ([a, b] ++ (gap ++ r')) = (do
        let (a, b, r) ← twoOctets r'
        if 48 ≤ a.toNat ∧ a.toNat ≤ 53 ∧ Json.isDigit b then .ok r
        else if 54 ≤ a.toNat ∧ a.toNat ≤ 57 ∧ Json.isDigit b then .error .outOfRange
        else .error .invalid) := by
      rw [scanOffset, h2]
      show (if _ then _ else _) = _
      rw [if_pos ⟨ha, hb⟩, hdrop]
    rcases twoOctets_cases r' with ⟨k1, k2⟩ | ⟨k1, k2, k3⟩ | ⟨a', b', r2, rfl, ha', hb', k2⟩
    · exact .inr ⟨.tooShort, .minutesEnd c [a, b] gap r' hm hh rfl hg hr k1, by rw [hscan, hstep, k2]; rfl⟩
    · refine .inr ⟨.invalid, .minutesOther c [a, b] gap r' hm hh rfl hg hr k1 k2, ?_⟩
      rw [hscan, hstep]
      rcases k3 with k3 | ⟨a', b', r2, k3, k4⟩
      · rw [k3]; rfl
      · rw [k3]
        show (if _ then _ else _) = _
        have hd : ∀ {lo hi : Nat}, 48 ≤ lo → hi ≤ 57 → ¬ (lo ≤ a'.toNat ∧ a'.toNat ≤ hi ∧ Json.isDigit b' = true) := by
          rintro lo hi h h' ⟨h1, h2, h3⟩
          refine k4 ⟨?_, h3⟩
          simp only [Json.isDigit, Bool.and_eq_true, decide_eq_true_eq]; omega
        rw [if_neg (hd (by decide) (by decide)), if_neg (hd (by decide) (by decide))]
    · have hmin : IsDigits [a', b'] := isDigits_two ha' hb'
      obtain ⟨_, _, e, -, -, hv⟩ := two_digits hmin rfl
      cases e
      have ha2 := ha'
      have hb2 := hb'
      simp only [Json.isDigit, Bool.and_eq_true, decide_eq_true_eq] at ha2 hb2
      have hres : scanPart .zone (c :: ([a, b] ++ (gap ++ ([a', b'] ++ r2)))) =
          if a'.toNat ≤ 53 then .ok r2 else .error .outOfRange := by
        rw [hscan, hstep, k2]
        show (if _ then _ else _) = _
        by_cases h53 : a'.toNat ≤ 53
        · rw [if_pos ⟨ha2.1, h53, hb'⟩, if_pos h53]
        · rw [if_neg (fun h => h53 h.2.1), if_neg h53, if_pos ⟨by omega, ha2.2, hb'⟩]
      by_cases h53 : a'.toNat ≤ 53
      · rw [if_pos h53] at hres
        refine .inl ⟨c :: ([a, b] ++ (gap ++ [a', b'])), r2, by simp, ?_, trivial, hres⟩
        rcases hc with rfl | rfl
        · exact .zone _ _ (.east [a, b] gap [a', b'] hh hmin rfl rfl (by omega) hg)
        · exact .zone _ _ (.west [a, b] gap [a', b'] hh hmin rfl rfl (by omega) hg)
      · rw [if_neg h53] at hres
        exact .inr ⟨.outOfRange, .minutesRange c [a, b] gap [a', b'] r2 hm hh rfl hg hmin rfl (by omega), hres⟩

theorem known_zone (s : Str) : Known .zone s := by
  cases s with
  | nil => exact .inr ⟨.tooShort, .zoneEnd, rfl⟩
  | cons c r =>
    by_cases h1 : c = 'z' ∨ c = 'Z'
    · exact .inl ⟨[c], r, rfl, .zone _ _ (.zulu c (by simpa using h1)), trivial, by simp [scanPart, scanZone, h1]⟩
    by_cases h2 : c = 'u' ∨ c = 'U'
    · by_cases h3 : ∃ t u r', r = t :: u :: r' ∧ (t = 't' ∨ t = 'T') ∧ (u = 'c' ∨ u = 'C')
      · obtain ⟨t, u, r', rfl, ht, hu⟩ := h3
        exact .inl ⟨[c, t, u], r', rfl, .zone _ _ (.utc c t u (by simpa using h2) (by simpa using ht) (by simpa using hu)),
          trivial, by simp [scanPart, scanZone, h1, h2, ht, hu]⟩
      · refine .inr ⟨.invalid, .zoneUtc c r (by simpa using h2) ?_, ?_⟩
        · intro s r' e hz
          have hne : c ≠ '+' ∧ c ≠ '-' := by rcases h2 with rfl | rfl <;> decide
          generalize h0 : (0 : Int) = z at hz
          cases hz with
          | zulu d hd => cases e; exact h1 (by simpa using hd)
          | utc u t d hu ht hd => cases e; exact h3 ⟨t, d, r', rfl, by simpa using ht, by simpa using hd⟩
          | east => cases e; exact hne.1 rfl
          | west => cases e; exact hne.2 rfl
        · simp only [scanPart, scanZone, if_neg h1, if_pos h2]
          split
          · rename_i t u r'
            rw [if_neg (fun h => h3 ⟨t, u, r', rfl, h.1, h.2⟩)]
          · rfl
    by_cases h3 : c = '+' ∨ c = '-'
    · exact known_offset h3
    · refine .inr ⟨.invalid, .zoneOther c r ?_, by simp [scanPart, scanZone, h1, h2, h3]⟩
      simp only [List.mem_cons, List.not_mem_nil, or_false]
      tauto

theorem known (p : Part) (s : Str) : Known p s := by
  cases p with
  | blank => exact known_blank s
  | mark c => exact known_mark c s
  | year => exact known_year s
  | number => exact known_number s
  | fraction => exact known_fraction s
  | zone => exact known_zone s

/-! ### The other direction -/

theorem noDigit_iff {r : Str} : NoDigit r ↔ ∀ c ∈ r.head?, ¬ IsDigits [c] := by
  simp [NoDigit, isDigits_one]

theorem digits_bound {k : Nat} {ds : Str} (hd : IsDigits ds) (hl : ds.length ≤ k) (hk : k ≤ 9) : decimal ds < 2 ^ 31 := by
  have := decimal_lt ds ((isDigits_iff ds).1 hd).2
  have : 10 ^ ds.length ≤ 10 ^ 9 := Nat.pow_le_pow_right (by omega) (by omega)
  omega

theorem scanNumber_digits {k : Nat} {ds r : Str} (hd : IsDigits ds) (hl : ds.length ≤ k) (hk : k ≤ 9)
    (hr : (∃ c ∈ r.head?, IsDigits [c]) → ds.length = k) : scanNumber (some k) (ds ++ r) = .ok (decimal ds, r) := by
  rw [scanNumber_ok]
  refine number_digits k ds r hd hl (by have := digits_bound hd hl hk; omega) ?_
  by_cases h : ∃ c ∈ r.head?, IsDigits [c]
  · exact .inr (hr h)
  · exact .inl (noDigit_iff.2 fun c hc h' => h ⟨c, hc, h'⟩)

theorem scanNumber_other {max : Option Nat} {c : Char} {r : Str} (h : ¬ IsDigits [c]) :
    scanNumber max (c :: r) = .error .invalid := by
  rw [isDigits_one] at h
  simp only [scanNumber, if_neg h]

theorem yearText_signed {s : Str} {y : Int} {r : Str} (h : YearText s y)
    (hr : ∀ c ∈ r.head?, ¬ IsDigits [c]) (hb : y < -2 ^ 31 ∨ 2 ^ 31 ≤ y ∨ ¬ IsDigits s) :
    scanYear (s ++ r) = if -2 ^ 31 ≤ y ∧ y < 2 ^ 31 then .ok r else .error .outOfRange := by
  have hr := noDigit_iff.2 hr
  have key : ∀ ds, IsDigits ds → scanNumber none (ds ++ r) =
      if decimal ds < 2 ^ 63 then .ok (decimal ds, r) else .error .outOfRange := by
    intro ds hd
    by_cases h : decimal ds < 2 ^ 63
    · rw [if_pos h, scanNumber_ok]; exact number_none ds r hd h hr
    · rw [if_neg h]
      obtain ⟨hne, hd⟩ := (isDigits_iff ds).1 hd
      cases ds with
      | nil => exact absurd rfl hne
      | cons c ds =>
        rw [List.cons_append, scanNumber, if_pos (hd c (by simp)), ← List.cons_append,
          digits_over (c :: ds) r 0 hd (by decide) (by rw [val_eq_decimal]; omega)]
  cases h with
  | plain ds hd hl =>
    have := digits_bound hd hl (by decide)
    rcases hb with hb | hb | hb
    · omega
    · omega
    · exact absurd hd hb
  | plus ds hd =>
    rw [List.cons_append, scanYear, key ds hd]
    by_cases h : decimal ds < 2 ^ 63
    · rw [if_pos h]; exact setYear_eq _ _
    · rw [if_neg h, if_neg (by omega)]; rfl
  | minus ds hd =>
    rw [List.cons_append, scanYear, key ds hd]
    by_cases h : decimal ds < 2 ^ 63
    · rw [if_pos h]; exact setYear_eq _ _
    · rw [if_neg h, if_neg (by omega)]; rfl

theorem scan_year {t r : Str} {y : Int} (h : YearText t y) (h1 : -2 ^ 31 ≤ y) (h2 : y < 2 ^ 31)
    (he : Ended .year t r) : scanYear (t ++ r) = .ok r := by
  by_cases hd : IsDigits t
  · have hh : ∀ c ∈ (t ++ r).head?, c ≠ '+' ∧ c ≠ '-' := by
      obtain ⟨hne, hd⟩ := (isDigits_iff t).1 hd
      cases t with
      | nil => exact absurd rfl hne
      | cons c t =>
        intro d hd'
        cases hd'
        have := hd c (by simp)
        constructor <;> (rintro rfl; exact absurd this (by decide))
    cases h with
    | plain _ _ hl =>
      rw [scanYear_plain hh, scanNumber_digits hd hl (by decide) (fun h => (he h).2)]
      show setYear _ _ = _
      rw [setYear_eq, if_pos ⟨h1, h2⟩]
    | plus ds => exact absurd rfl (hh '+' rfl).1
    | minus ds => exact absurd rfl (hh '-' rfl).2
  · rw [yearText_signed h (fun c hc h' => hd (he ⟨c, hc, h'⟩).1) (.inr (.inr hd)), if_pos ⟨h1, h2⟩]

theorem scan_fraction {t r : Str} {n : Nat} (h : Rfc3339Fraction t n) (he : Ended .fraction t r) :
    scanFraction (t ++ r) = .ok r := by
  cases h with
  | none =>
    have := he.1 rfl
    rw [List.nil_append]
    unfold scanFraction
    split
    · exact absurd rfl this
    · rfl
  | some ds hd =>
    have hr := noDigit_iff.2 (he.2 (by simp))
    obtain ⟨h1, h2⟩ := (isDigits_iff ds).1 hd
    rw [List.cons_append, scanFraction]
    rcases scanNumber_some (k := 9) (by decide) (by decide) (ds ++ r) with ⟨h, -⟩ | ⟨c, r', e, hc, h⟩ | ⟨ds', r', e, hd', hl, hr', h⟩
    · exact absurd (List.append_eq_nil_iff.1 h).1 h1
    · cases ds with
      | nil => exact absurd rfl h1
      | cons d ds => cases e; rw [h2 c (by simp)] at hc; cases hc
    · rw [h]
      show Except.ok (r'.dropWhile Json.isDigit) = .ok r
      congr 1
      have k1 := dropWhile_digits ds r h2 hr
      rw [e] at k1
      rw [List.dropWhile_append_of_pos ((isDigits_iff ds').1 hd').2] at k1
      exact k1

theorem scan_offset {c : Char} {h gap r : Str} (hc : c ∈ ['+', '-']) (hh : IsDigits h) (hl : h.length = 2)
    (hg : ∀ d ∈ gap, d = ':' ∨ WhiteSpace d) (hr : ∀ d ∈ r.head?, ¬ (d = ':' ∨ WhiteSpace d)) :
    scanZone (c :: (h ++ (gap ++ r))) = (do
        let (a, b, r) ← twoOctets r
        if 48 ≤ a.toNat ∧ a.toNat ≤ 53 ∧ Json.isDigit b then .ok r
        else if 54 ≤ a.toNat ∧ a.toNat ≤ 57 ∧ Json.isDigit b then .error .outOfRange
        else .error .invalid) := by
  have hc' : c = '+' ∨ c = '-' := by simpa using hc
  have hscan : scanZone (c :: (h ++ (gap ++ r))) = scanOffset (h ++ (gap ++ r)) := by
    rcases hc' with rfl | rfl <;> rfl
  obtain ⟨a, b, rfl, ha, hb, -⟩ := two_digits hh hl
  have hdrop : (gap ++ r).dropWhile (fun c => c == ':' || isWhitespace c) = r := by
    rw [List.dropWhile_append_of_pos (fun d hd => by simpa [isWhitespace_iff] using hg d hd)]
    cases r with
    | nil => rfl
    | cons d r =>
      rw [List.dropWhile_cons_of_neg]
      simpa [isWhitespace_iff] using hr d rfl
  rw [hscan, scanOffset]
  show (if _ then _ else _) = _
  rw [if_pos ⟨ha, hb⟩]
  show (do let (a, b, r) ← twoOctets ((gap ++ r).dropWhile _); _) = _
  rw [hdrop]

theorem digits_noGap {m r : Str} (hm : IsDigits m) : ∀ d ∈ (m ++ r).head?, ¬ (d = ':' ∨ WhiteSpace d) := by
  obtain ⟨hne, hd⟩ := (isDigits_iff m).1 hm
  cases m with
  | nil => exact absurd rfl hne
  | cons c m =>
    intro d hd' h
    cases hd'
    have hc := hd c (by simp)
    rcases h with rfl | h
    · exact absurd hc (by decide)
    · rw [← isWhitespace_iff, isDigit_notWs hc] at h; cases h

theorem scan_minutes {c : Char} {h gap m r : Str} (hc : c ∈ ['+', '-']) (hh : IsDigits h) (hl : h.length = 2)
    (hg : ∀ d ∈ gap, d = ':' ∨ WhiteSpace d) (hm : IsDigits m) (hl' : m.length = 2) :
    scanZone (c :: (h ++ (gap ++ (m ++ r)))) = if decimal m ≤ 59 then .ok r else .error .outOfRange := by
  rw [scan_offset hc hh hl hg (digits_noGap hm)]
  obtain ⟨a, b, rfl, ha, hb, hv⟩ := two_digits hm hl'
  have ha2 := ha
  have hb2 := hb
  simp only [Json.isDigit, Bool.and_eq_true, decide_eq_true_eq] at ha2 hb2
  show (if _ then _ else _) = _
  by_cases h53 : a.toNat ≤ 53
  · rw [if_pos ⟨ha2.1, h53, hb⟩, if_pos (by omega)]; rfl
  · rw [if_neg (fun h => h53 h.2.1), if_pos ⟨by omega, ha2.2, hb⟩, if_neg (by omega)]

theorem scan_zone {t r : Str} {off : Int} (h : Zone t off) : scanZone (t ++ r) = .ok r := by
  cases h with
  | zulu c hc =>
    have hc : c = 'z' ∨ c = 'Z' := by simpa using hc
    simp [scanZone, hc]
  | utc u t c hu ht hc =>
    have h1 : ¬ (u = 'z' ∨ u = 'Z') := by
      rcases (by simpa using hu : u = 'u' ∨ u = 'U') with rfl | rfl <;> decide
    simp only [List.mem_cons, List.not_mem_nil, or_false] at hu ht hc
    simp [scanZone, h1, hu, ht, hc]
  | east h gap m hh hm hl hl' hb hg =>
    have := scan_minutes (c := '+') (r := r) (by decide) hh hl hg hm hl'
    rw [if_pos hb] at this
    simpa using this
  | west h gap m hh hm hl hl' hb hg =>
    have := scan_minutes (c := '-') (r := r) (by decide) hh hl hg hm hl'
    rw [if_pos hb] at this
    simpa using this

theorem scan_text {p : Part} {t r : Str} (h : PartText p t) (he : Ended p t r) : scanPart p (t ++ r) = .ok r := by
  cases h with
  | blank _ hw =>
    refine congrArg Except.ok (dropWhile_blank t r hw fun c hc => ?_)
    have := he c hc
    rw [← isWhitespace_iff] at this
    simpa using this
  | mark c => simp [scanPart, scanItem]
  | year _ y hy h1 h2 => exact scan_year hy h1 h2 he
  | number _ n hn =>
    simp only [scanPart]
    rw [scanNumber_digits hn.1 hn.2.1 (by decide) he]
    rfl
  | fraction _ n hf => exact scan_fraction hf he
  | zone _ off hz => exact scan_zone hz

/-- Two octets that are not two digits. -/
theorem twoOctets_other {s : Str} (h1 : ¬ Short s) (h2 : ¬ TwoDigits s) : twoOctets s = .error .invalid ∨
    ∃ a b r, twoOctets s = .ok (a, b, r) ∧ ¬ (Json.isDigit a = true ∧ Json.isDigit b = true) := by
  rcases twoOctets_cases s with ⟨h, -⟩ | ⟨-, -, h⟩ | ⟨a, b, r, rfl, ha, hb, -⟩
  · exact absurd h h1
  · exact h
  · exact absurd (twoDigits_iff.2 ⟨ha, hb⟩) h2

theorem twoOctets_short {s : Str} (h : Short s) : twoOctets s = .error .tooShort := by
  rcases twoOctets_cases s with ⟨-, h'⟩ | ⟨h', -, -⟩ | ⟨a, b, r, rfl, ha, hb, -⟩
  · exact h'
  · exact absurd h h'
  · rw [short_iff] at h; simp at h

theorem scan_fault {p : Part} {s m : Str} (h : PartFault p s m) : ∃ e, scanPart p s = .error e ∧ e.text = m := by
  have sign : ∀ {c : Char} {r : Str}, c ∈ ['+', '-'] → scanZone (c :: r) = scanOffset r := by
    intro c r hc
    rcases (by simpa using hc : c = '+' ∨ c = '-') with rfl | rfl <;> rfl
  cases h with
  | markEnd c => exact ⟨.tooShort, rfl, rfl⟩
  | markOther c d r hd => exact ⟨.invalid, by simp [scanPart, scanItem, hd], rfl⟩
  | numberEnd => exact ⟨.tooShort, rfl, rfl⟩
  | numberOther c r hc => exact ⟨.invalid, by simp only [scanPart]; rw [scanNumber_other hc]; rfl, rfl⟩
  | yearEnd => exact ⟨.tooShort, rfl, rfl⟩
  | yearSignEnd c hc =>
    rcases (by simpa using hc : c = '+' ∨ c = '-') with rfl | rfl <;> exact ⟨.tooShort, rfl, rfl⟩
  | yearSignOther c d r hc hd =>
    refine ⟨.invalid, ?_, rfl⟩
    simp only [scanPart]
    rcases (by simpa using hc : c = '+' ∨ c = '-') with rfl | rfl <;>
      (rw [scanYear, scanNumber_other hd]; rfl)
  | yearOther c r hc hd =>
    refine ⟨.invalid, ?_, rfl⟩
    simp only [scanPart]
    rw [scanYear_plain (by intro d hd'; cases hd'; simpa using hc), scanNumber_other hd]
    rfl
  | yearRange t r y hy hr hb =>
    refine ⟨.outOfRange, ?_, rfl⟩
    simp only [scanPart]
    rw [yearText_signed hy hr (by omega), if_neg (by omega)]
  | fractionEnd => exact ⟨.tooShort, rfl, rfl⟩
  | fractionOther c r hc =>
    refine ⟨.invalid, ?_, rfl⟩
    simp only [scanPart]
    rw [scanFraction, scanNumber_other hc]
    rfl
  | zoneEnd => exact ⟨.tooShort, rfl, rfl⟩
  | zoneOther c r hc =>
    simp only [List.mem_cons, List.not_mem_nil, or_false, not_or] at hc
    exact ⟨.invalid, by simp [scanPart, scanZone, hc], rfl⟩
  | zoneUtc c r hc hn =>
    refine ⟨.invalid, ?_, rfl⟩
    have hc' : c = 'u' ∨ c = 'U' := by simpa using hc
    have h1 : ¬ (c = 'z' ∨ c = 'Z') := by rcases hc' with rfl | rfl <;> decide
    simp only [scanPart, scanZone, if_neg h1, if_pos hc']
    split
    · rename_i t u r'
      rw [if_neg]
      rintro ⟨ht, hu⟩
      exact hn [c, t, u] r' rfl (.utc c t u hc (by simpa using ht) (by simpa using hu))
    · rfl
  | hoursEnd c r hc hs =>
    exact ⟨.tooShort, by simp only [scanPart]; rw [sign hc, scanOffset, twoOctets_short hs]; rfl, rfl⟩
  | hoursOther c r hc h1 h2 =>
    refine ⟨.invalid, ?_, rfl⟩
    simp only [scanPart]
    rw [sign hc, scanOffset]
    rcases twoOctets_other h1 h2 with h | ⟨a, b, r', h, hn⟩
    · rw [h]; rfl
    · rw [h]
      show (if _ then _ else _) = _
      rw [if_neg hn]
  | minutesEnd c h gap r hc hh hl hg hr hs =>
    exact ⟨.tooShort, by simp only [scanPart]; rw [scan_offset hc hh hl hg hr, twoOctets_short hs]; rfl, rfl⟩
  | minutesOther c h gap r hc hh hl hg hr h1 h2 =>
    refine ⟨.invalid, ?_, rfl⟩
    simp only [scanPart]
    rw [scan_offset hc hh hl hg hr]
    rcases twoOctets_other h1 h2 with h | ⟨a, b, r', h, hn⟩
    · rw [h]; rfl
    · rw [h]
      show (if _ then _ else _) = _
      have hd : ∀ {lo hi : Nat}, 48 ≤ lo → hi ≤ 57 → ¬ (lo ≤ a.toNat ∧ a.toNat ≤ hi ∧ Json.isDigit b = true) := by
        rintro lo hi h h' ⟨h1, h2, h3⟩
        refine hn ⟨?_, h3⟩
        simp only [Json.isDigit, Bool.and_eq_true, decide_eq_true_eq]; omega
      rw [if_neg (hd (by decide) (by decide)), if_neg (hd (by decide) (by decide))]
  | minutesRange c h gap m r hc hh hl hg hm hl' hb =>
    refine ⟨.outOfRange, ?_, rfl⟩
    simp only [scanPart]
    rw [scan_minutes hc hh hl hg hm hl', if_neg (by omega)]

/-! ### Sequences of parts -/

/-- The parts in turn. -/
def scanParts : List Part → Str → Except ParseError Str
  | [], s => .ok s
  | p :: ps, s => do let r ← scanPart p s; scanParts ps r

theorem begins_scan {ps : List Part} {s r : Str} (h : Begins ps s r) : scanParts ps s = .ok r := by
  induction h with
  | nil r => rfl
  | cons p ps t u r h1 h2 _ ih => rw [scanParts, scan_text h1 h2]; exact ih

theorem scan_begins (ps : List Part) : ∀ {s r : Str}, scanParts ps s = .ok r → Begins ps s r := by
  induction ps with
  | nil => intro s r h; cases h; exact .nil _
  | cons p ps ih =>
    intro s r h
    rcases known p s with ⟨t, u, rfl, h1, h2, h3⟩ | ⟨e, -, h3⟩
    · rw [scanParts, h3] at h
      exact .cons p ps t u r h1 h2 (ih h)
    · rw [scanParts, h3] at h
      cases h

theorem begins_iff {ps : List Part} {s r : Str} : Begins ps s r ↔ scanParts ps s = .ok r :=
  ⟨begins_scan, scan_begins ps⟩

theorem scanParts_append (ps qs : List Part) : ∀ s : Str,
    scanParts (ps ++ qs) s = (do let r ← scanParts ps s; scanParts qs r) := by
  induction ps with
  | nil => intro s; rfl
  | cons p ps ih =>
    intro s
    rw [List.cons_append, scanParts, scanParts]
    cases scanPart p s with
    | error e => rfl
    | ok r => exact ih r

/-- The error in a sequence of parts is that of the first part which is not there. -/
theorem scan_error (ps : List Part) : ∀ {s : Str} {e : ParseError}, scanParts ps s = .error e ↔
    ∃ before after p r, ps = before ++ p :: after ∧ Begins before s r ∧ PartFault p r e.text := by
  intro s e
  constructor
  · intro h
    induction ps generalizing s with
    | nil => cases h
    | cons p ps ih =>
      rcases known p s with ⟨t, u, rfl, h1, h2, h3⟩ | ⟨e', h1, h3⟩
      · rw [scanParts, h3] at h
        obtain ⟨before, after, q, r, rfl, hb, hf⟩ := ih h
        exact ⟨p :: before, after, q, r, rfl, .cons p before t u r h1 h2 hb, hf⟩
      · rw [scanParts, h3] at h
        cases h
        exact ⟨[], ps, p, s, rfl, .nil s, h1⟩
  · rintro ⟨before, after, p, r, rfl, hb, hf⟩
    obtain ⟨e', h1, h2⟩ := scan_fault hf
    rw [scanParts_append, begins_scan hb]
    show scanParts (p :: after) r = _
    rw [scanParts, h1, text_inj h2]
    rfl

theorem scan_date (s : Str) : scanItems dateItems s = scanParts dateParts s := rfl

theorem scan_clock (s : Str) : scanItems timeItems s = scanParts clockParts s := rfl

/-! ### Date-time texts have no fault of form -/

theorem ended_digits {t r : Str} (hr : NoDigit r) : Ended .number t r ∧ Ended .year t r :=
  ⟨fun ⟨c, hc, h⟩ => absurd h (noDigit_iff.1 hr c hc), fun ⟨c, hc, h⟩ => absurd h (noDigit_iff.1 hr c hc)⟩

theorem ended_blank {w r : Str} (h : ∀ c ∈ r.head?, isWhitespace c = false) : Ended .blank w r := by
  intro c hc h'
  rw [← isWhitespace_iff, h c hc] at h'
  cases h'

theorem begins_cons {p : Part} {ps : List Part} {s t r : Str} (h1 : PartText p s) (h2 : Ended p s t)
    (h3 : Begins ps t r) : Begins (p :: ps) (s ++ t) r := .cons p ps s t r h1 h2 h3

theorem date_begins {date r : Str} {x : Date} (h : DateText date x) (h1 : -2 ^ 31 ≤ x.year) (h2 : x.year < 2 ^ 31)
    (hr : NoDigit r) : Begins dateParts (date ++ r) r := by
  obtain ⟨w0, w1, w2, w3, w4, ys, mo, ds, b0, b1, b2, b3, b4, t0, t2, t4, rfl⟩ := h
  have hdash : ∀ w t : Str, Blank w → NoDigit (w ++ '-' :: t) := fun w t hw =>
    noDigit_blank hw (noDigit_cons (by decide))
  have hyear : ∀ c ∈ (ys ++ (w1 ++ '-' :: (w2 ++ (mo ++ (w3 ++ '-' :: (w4 ++ (ds ++ r))))))).head?,
      isWhitespace c = false := by
    generalize x.year = y at t0
    cases t0 with
    | plain _ hd => exact digits_head _ _ hd
    | plus => intro c hc; cases hc; decide
    | minus => intro c hc; cases hc; decide
  simp only [List.append_assoc, List.cons_append]
  refine begins_cons (.blank w0 b0) (ended_blank hyear) (begins_cons (.year ys _ t0 h1 h2)
    (ended_digits (hdash _ _ b1)).2 (begins_cons (.blank w1 b1) (ended_blank ?_) (begins_cons (s := ['-']) (.mark '-') trivial
    (begins_cons (.blank w2 b2) (ended_blank (digits_head _ _ t2.1)) (begins_cons (.number mo _ t2)
    (ended_digits (hdash _ _ b3)).1 (begins_cons (.blank w3 b3) (ended_blank ?_) (begins_cons (s := ['-']) (.mark '-') trivial
    (begins_cons (.blank w4 b4) (ended_blank (digits_head _ _ t4.1)) (begins_cons (.number ds _ t4)
    (ended_digits hr).1 (.nil r))))))))))
  all_goals (intro c hc; cases hc; decide)

theorem clock_begins_rest {clock rest : Str} {h mi sec ns : Nat} {off : Int} (hc : ClockText clock h mi sec ns off)
    (hr : ∀ c ∈ rest.head?, ¬ WhiteSpace c) : Begins clockParts (clock ++ rest) rest := by
  obtain ⟨w0, w1, w2, w3, w4, w5, w6', hs, mis, ss, frac, z, b0, b1, b2, b3, b4, b5, b6, t0, t2, t4, tf, tz, rfl⟩ := hc
  simp only [List.append_assoc, List.cons_append]
  obtain ⟨w6, hw6⟩ : ∃ w6, w6 = w6' ++ rest := ⟨_, rfl⟩
  rw [← hw6]
  have hcolon : ∀ w t : Str, Blank w → NoDigit (w ++ ':' :: t) := fun w t hw =>
    noDigit_blank hw (noDigit_cons (by decide))
  obtain ⟨c, zr, hz, hzc⟩ := zone_head tz
  obtain ⟨f1, f2, f3⟩ := zone_facts hzc
  have hzd : NoDigit (w5 ++ (z ++ w6)) := noDigit_blank b5 (by rw [hz]; exact noDigit_cons f2)
  have hzdot : (w5 ++ (z ++ w6)).head? ≠ some '.' := by
    intro hd
    cases w5 with
    | nil => rw [hz] at hd; cases hd; exact f3 rfl
    | cons d w5 => cases hd; exact (ws_facts (b5 _ (by simp))).2.1 rfl
  have hzw : ∀ c ∈ (z ++ w6).head?, isWhitespace c = false := by
    rw [hz]; intro d hd; cases hd; exact f1
  have hfd : NoDigit (frac ++ (w5 ++ (z ++ w6))) := by
    cases tf with
    | none => exact hzd
    | some ds => exact noDigit_cons (by decide)
  have hend : Begins [.blank] w6 rest := by
    rw [hw6]
    exact begins_cons (ps := []) (.blank w6' b6) hr (.nil rest)
  refine begins_cons (.blank w0 b0) (ended_blank (digits_head _ _ t0.1)) (begins_cons (.number hs _ t0)
    (ended_digits (hcolon _ _ b1)).1 (begins_cons (.blank w1 b1) (ended_blank ?_) (begins_cons (s := [':']) (.mark ':') trivial
    (begins_cons (.blank w2 b2) (ended_blank (digits_head _ _ t2.1)) (begins_cons (.number mis _ t2)
    (ended_digits (hcolon _ _ b3)).1 (begins_cons (.blank w3 b3) (ended_blank ?_) (begins_cons (s := [':']) (.mark ':') trivial
    (begins_cons (.blank w4 b4) (ended_blank (digits_head _ _ t4.1)) (begins_cons (.number ss _ t4)
    (ended_digits hfd).1 (begins_cons (.fraction frac _ tf) ⟨fun _ => hzdot, fun _ => noDigit_iff.1 hzd⟩
    (begins_cons (.blank w5 b5) (ended_blank hzw) (begins_cons (.zone z _ tz) trivial hend))))))))))))
  all_goals (intro c hc; cases hc; decide)

theorem clock_begins {clock : Str} {h mi sec ns : Nat} {off : Int} (hc : ClockText clock h mi sec ns off) :
    Begins clockParts clock [] := by
  have := clock_begins_rest (rest := []) hc (by simp)
  rwa [List.append_nil] at this

/-- A text that is read, or panics, has no error. -/
theorem parseError_read {s : Str} (h : readDateTime s ≠ .err ()) : parseError s = none := by
  rcases readDateTime_cases s with ⟨he, -⟩ | ⟨x, hh, mi, sec, ns, off, hs⟩
  · exact absurd he h
  · obtain ⟨date, clock, c, rfl, hd, hc, hcl, -, -, -, -, -, -, v2, v3⟩ := hs
    have hc' : c = 'T' ∨ c = ' ' := by simpa using hc
    have hcd : Json.isDigit c = false := by rcases hc' with rfl | rfl <;> decide
    rw [parseError, scan_date, begins_scan (date_begins hd (by omega) (by omega) (noDigit_cons hcd))]
    simp only [if_pos hc', scan_clock, begins_scan (clock_begins hcl)]

theorem parseError_none (s : Str) : parseError s = none ↔ readDateTime s ≠ .err () := by
  refine ⟨fun h => ?_, parseError_read⟩
  unfold parseError at h
  split at h
  · cases h
  · cases h
  · split at h
    · split at h
      · cases h
      · cases h
      · split at h
        · cases h
        · rename_i he; exact he
    · cases h

end Chrono
end Oid4vci
