import Verif.Lemmas.Dated
import Verif.Props.Instant

/-! C102: the date-time texts which are written. -/

namespace Oid4vci

open Spec
open Chrono

theorem dated_of {sep : Char} {zone s : Str} {t : Time} (h : WrittenInstant sep zone s t) :
    s = (let secs := t / 1000000000
      let ns := (t % 1000000000).toNat
      let sod := (secs % 86400).toNat
      let x := fromDaysFromCe (secs / 86400 + epochDay)
      showYear x.year ++ '-' :: (fixed 2 x.month ++ '-' :: (fixed 2 x.day ++ sep ::
        (fixed 2 (sod / 3600) ++ ':' :: (fixed 2 (sod / 60 % 60) ++ ':' ::
          (fixed 2 (sod % 60) ++ (showFraction ns ++ zone))))))) := by
  obtain ⟨y, mo, d, hh, mi, sec, frac, ns, x, day, rfl, hy, d2, d3, d4, d5, d6, l2, l3, l4, l5, l6, e2, e3, b4, b5,
    b6, hf, hday, rfl⟩ := h
  have hns : ns < 1000000000 := by
    cases hf with
    | none => decide
    | some ds hd hl _ =>
      have hl : ds.length ≤ 9 := by
        simp only [List.mem_cons, List.not_mem_nil, or_false] at hl; omega
      have := decimal_lt ds ((isDigits_iff ds).1 hd).2
      rw [nanos, List.take_of_length_le hl]
      have hm := Nat.mul_lt_mul_of_lt_of_le this (Nat.le_refl (10 ^ (9 - ds.length))) (Nat.pow_pos (by decide))
      rwa [← Nat.pow_add, show ds.length + (9 - ds.length) = 9 by omega] at hm
  obtain ⟨hx, hd⟩ := (dayNumber_iff _ _).1 hday
  have hd' : fromDaysFromCe (day + epochDay) = x := by
    rw [hd, Int.sub_add_cancel]; exact fromDays_numDays x hx
  obtain ⟨s', hs⟩ : ∃ s' : Nat, s' = decimal hh * 3600 + decimal mi * 60 + decimal sec := ⟨_, rfl⟩
  have hs' : s' < 86400 := by omega
  have e : instantOf day (decimal hh) (decimal mi) (decimal sec) ns 0 = (day * 86400 + (s' : Int)) * 1000000000 + ns := by
    show ((day * 86400 + ((decimal hh * 3600 + decimal mi * 60 + decimal sec : Nat) : Int) - 0) * 1000000000 +
      (ns : Int) : Int) = _
    rw [← hs]; omega
  rw [e]
  have q1 : ((day * 86400 + (s' : Int)) * 1000000000 + ns) / 1000000000 = day * 86400 + s' := by omega
  have q2 : (((day * 86400 + (s' : Int)) * 1000000000 + ns) % 1000000000).toNat = ns := by omega
  have q3 : (day * 86400 + (s' : Int)) / 86400 = day := by omega
  have q4 : ((day * 86400 + (s' : Int)) % 86400).toNat = s' := by omega
  simp only [q1, q2, q3, q4, hd']
  rw [(showYear_iff _ _).2 hy, (showFraction_iff _ _ hns).2 hf, ← e2, ← e3, fixed_decimal d2 l2, fixed_decimal d3 l3,
    show s' / 3600 = decimal hh by omega, show s' / 60 % 60 = decimal mi by omega, show s' % 60 = decimal sec by omega,
    fixed_decimal d4 l4, fixed_decimal d5 l5, fixed_decimal d6 l6]

theorem dated_shown (sep : Char) (zone : Str) (t : Time) : WrittenInstant sep zone
    (let secs := t / 1000000000
      let ns := (t % 1000000000).toNat
      let sod := (secs % 86400).toNat
      let x := fromDaysFromCe (secs / 86400 + epochDay)
      showYear x.year ++ '-' :: (fixed 2 x.month ++ '-' :: (fixed 2 x.day ++ sep ::
        (fixed 2 (sod / 3600) ++ ':' :: (fixed 2 (sod / 60 % 60) ++ ':' ::
          (fixed 2 (sod % 60) ++ (showFraction ns ++ zone))))))) t := by
  have hx := fromDays_isDate (t / 1000000000 / 86400 + epochDay)
  have hn := numDays_fromDays (t / 1000000000 / 86400 + epochDay)
  have hml : monthLength (fromDaysFromCe (t / 1000000000 / 86400 + epochDay)).year
      (fromDaysFromCe (t / 1000000000 / 86400 + epochDay)).month ≤ 31 := by
    simp only [monthLength]; split_ifs <;> omega
  have hday : DayNumber (fromDaysFromCe (t / 1000000000 / 86400 + epochDay)) (t / 1000000000 / 86400) :=
    (dayNumber_iff _ _).2 ⟨hx, by rw [hn]; omega⟩
  obtain ⟨d1, d2, d3, d4⟩ := hx
  obtain ⟨sod, hsod⟩ : ∃ sod, sod = (t / 1000000000 % 86400).toNat := ⟨_, rfl⟩
  have hs : sod < 86400 := by omega
  have hns : (t % 1000000000).toNat < 1000000000 := by omega
  simp only [← hsod]
  generalize fromDaysFromCe (t / 1000000000 / 86400 + epochDay) = x at *
  obtain ⟨a1, a2, a3⟩ := fixed_digits (w := 2) (n := x.month) (by omega) (by omega)
  obtain ⟨b1, b2, b3⟩ := fixed_digits (w := 2) (n := x.day) (by omega) (by omega)
  obtain ⟨f1, f2, f3⟩ := fixed_digits (w := 2) (n := sod / 3600) (by omega) (by omega)
  obtain ⟨g1, g2, g3⟩ := fixed_digits (w := 2) (n := sod / 60 % 60) (by omega) (by omega)
  obtain ⟨h1, h2, h3⟩ := fixed_digits (w := 2) (n := sod % 60) (by omega) (by omega)
  refine ⟨_, _, _, _, _, _, _, _, x, _, rfl, (showYear_iff _ _).1 rfl, a1, b1, f1, g1, h1, a2, b2, f2, g2, h2, a3, b3,
    by omega, by omega, by omega, (showFraction_iff _ _ hns).1 rfl, hday, ?_⟩
  rw [f3, g3, h3]
  show @Eq Int t ((t / 1000000000 / 86400 * 86400 + ((sod / 3600 * 3600 + sod / 60 % 60 * 60 + sod % 60 : Nat) : Int) - 0) *
    1000000000 + ((t % 1000000000).toNat : Int))
  rw [show sod / 3600 * 3600 + sod / 60 % 60 * 60 + sod % 60 = sod by omega]
  omega

/-- C102. Instants are written as date-times in UTC with `T` and `Z`, with as few groups of three digits
of a second as they need, and in no other way. -/
theorem C102_written (s : Str) (t : Time) : Chrono.showTime t = s ↔ WrittenInstant 'T' ['Z'] s t :=
  ⟨fun h => h ▸ dated_shown _ _ t, fun h => (dated_of h).symm⟩

/-- C102. Messages show them with a space and `UTC` instead. -/
theorem C102_displayed (s : Str) (t : Time) : Chrono.dispTime t = s ↔ WrittenInstant ' ' (str! " UTC") s t :=
  ⟨fun h => h ▸ dated_shown _ _ t, fun h => (dated_of h).symm⟩

/-- C102. Every instant is written in the format of RFC 3339. -/
def C102_statement : Prop := ∀ t, Time.Valid t → Rfc3339 (Chrono.showTime t) t

theorem rfc3339_of {s : Str} {t : Time} (h : WrittenInstant 'T' ['Z'] s t)
    (hs : ∀ c ∈ s.head?, c ≠ '+' ∧ c ≠ '-') : Rfc3339 s t := by
  obtain ⟨y, mo, d, hh, mi, sec, frac, ns, x, day, rfl, hy, d2, d3, d4, d5, d6, l2, l3, l4, l5, l6, e2, e3, b4, b5,
    b6, hf, hday, rfl⟩ := h
  obtain ⟨year, month, dd⟩ := x
  simp only at hy e2 e3
  subst e2 e3
  cases hy with
  | later => simp at hs
  | earlier => simp at hs
  | plain _ hd hl =>
    refine ⟨y, mo, d, hh, mi, sec, frac, _, ns, 0, day, rfl, hd, d2, d3, d4, d5, d6, hl, l2, l3, l4, l5, l6,
      b4, b5, by omega, ?_, .utc, hday, rfl⟩
    cases hf with
    | none => exact .none
    | some ds h1 h2 h3 => exact .some ds h1

/-- C102. This holds of the years 0 to 9999, and of no others: their texts begin with a sign, and are no
date-times of RFC 3339 at all. -/
theorem C102_rfc3339_partial (t : Time) (x : Date) (hx : DayNumber x (t / 86400000000000)) :
    (Rfc3339 (Chrono.showTime t) t ↔ 0 ≤ x.year ∧ x.year ≤ 9999) ∧
    ∀ t', Rfc3339 (Chrono.showTime t) t' → 0 ≤ x.year ∧ x.year ≤ 9999 := by
  have hx' : fromDaysFromCe (t / 1000000000 / 86400 + epochDay) = x := by
    obtain ⟨h1, h2⟩ := (dayNumber_iff _ _).1 hx
    have h3 : ∀ u : Int, u / 1000000000 / 86400 = u / 86400000000000 := fun u => by omega
    rw [h3 t, h2, Int.sub_add_cancel]
    exact fromDays_numDays x h1
  have hs : ∃ r, Chrono.showTime t = showYear x.year ++ '-' :: r := ⟨_, by rw [Chrono.showTime, hx']⟩
  obtain ⟨r, hr⟩ := hs
  have key : ∀ t', Rfc3339 (Chrono.showTime t) t' → 0 ≤ x.year ∧ x.year ≤ 9999 := by
    rintro t' ⟨y, mo, d, hh, mi, sec, frac, zone, ns, off, day, e, d1, -⟩
    obtain ⟨h0, h1⟩ := (isDigits_iff _).1 d1
    by_contra hn
    rw [hr, showYear, if_neg hn] at e
    cases y with
    | nil => exact h0 rfl
    | cons c y =>
      have hc := h1 c (by simp)
      simp only [List.cons_append, List.cons.injEq] at e
      rw [← e.1] at hc
      split at hc <;> exact absurd hc (by decide)
  refine ⟨⟨key t, fun h => rfc3339_of ((C102_written _ _).1 rfl) ?_⟩, key⟩
  rw [hr, showYear, if_pos h]
  obtain ⟨f1, f2, -⟩ := fixed_digits (w := 4) (n := x.year.toNat) (by omega) (by omega)
  obtain ⟨h0, h1⟩ := (isDigits_iff _).1 f1
  cases hf : fixed 4 x.year.toNat with
  | nil => exact absurd hf h0
  | cons c l =>
    have hc := h1 c (by rw [hf]; simp)
    rintro c' hc'
    simp only [List.cons_append, List.head?_cons, Option.mem_def, Option.some.injEq] at hc'
    subst hc'
    constructor <;> rintro rfl <;> exact absurd hc (by decide)

/-- The first instant of the year 10000. -/
theorem C102_refuted : ¬ C102_statement := by
  intro h
  have hx : DayNumber ⟨10000, 1, 1⟩ ((253402300800000000000 : Time) / 86400000000000) :=
    (dayNumber_iff _ _).2 ⟨by unfold IsDate; decide, by decide⟩
  have := ((C102_rfc3339_partial _ _ hx).1.1 (h _ ⟨by decide, by decide⟩)).2
  exact absurd this (by decide)

/-- C102. A token not valid before that instant is reported with a text that is no date-time of
RFC 3339. -/
theorem C102_violation (x : Ext) (now : Time) :
    ∃ (t : Time) (s : Str), Time.Valid t ∧
      (∃ l, ((JwtError.notYetValid t now).information (withChrono x)).additionalInformation = some (.obj l) ∧
        (str! "valid_from", .str s) ∈ l) ∧ ∀ t', ¬ Rfc3339 s t' := by
  have hx : DayNumber ⟨10000, 1, 1⟩ ((253402300800000000000 : Time) / 86400000000000) :=
    (dayNumber_iff _ _).2 ⟨by unfold IsDate; decide, by decide⟩
  refine ⟨253402300800000000000, Chrono.showTime 253402300800000000000, ⟨by decide, by decide⟩,
    ⟨_, rfl, List.mem_cons_of_mem _ (List.mem_singleton.2 rfl)⟩, fun t' h => ?_⟩
  exact absurd ((C102_rfc3339_partial _ _ hx).2 t' h).2 (by decide)

end Oid4vci

namespace Oid4vci.Ex
open Spec

example : Chrono.showTime 253402300800000000000 = str! "+10000-01-01T00:00:00Z" := by decide +kernel
example : Chrono.showTime 1536959950500000000 = str! "2018-09-14T21:19:10.500Z" := by decide +kernel
example : Chrono.showTime (-62167219200000000000) = str! "0000-01-01T00:00:00Z" := by decide +kernel
example : Chrono.showTime (-62167219200000000001) = str! "-0001-12-31T23:59:59.999999999Z" := by decide +kernel
example : DayNumber ⟨2018, 9, 14⟩ ((1536959950500000000 : Time) / 86400000000000) :=
  (Chrono.dayNumber_iff _ _).2 ⟨by unfold IsDate; decide, by decide⟩

end Oid4vci.Ex
