import Verif.Lemmas.Instant
import Verif.Spec.Leap

/-! Reading date-times with leap seconds. -/

namespace Oid4vci
namespace Chrono

open Spec

theorem clockFields_iff {s : Str} {h mi sec ns : Nat} {off : Int} :
    clockFields s = some (h, mi, sec, ns, off, []) ↔
    ClockText s h mi sec ns off ∧ h ≤ 23 ∧ mi ≤ 59 ∧ sec ≤ 60 ∧ -86400 < off ∧ off < 86400 := by
  constructor
  · intro h
    simp only [clockFields, Option.bind_eq_bind, Option.bind_eq_some_iff, Prod.exists] at h
    obtain ⟨hh, s1, h1, s2, h2, mi, s3, h3, s4, h4, sec, s5, h5, n, s6, h6, o, s7, h7, h8⟩ := h
    split at h8
    · rename_i hc
      simp only [Option.some.injEq, Prod.mk.injEq] at h8
      obtain ⟨rfl, rfl, rfl, rfl, rfl, h8⟩ := h8
      obtain ⟨w0, hs, b0, t0, rfl⟩ := numeric2_inv h1
      obtain ⟨w1, b1, rfl⟩ := (separator_iff (by decide)).1 h2
      obtain ⟨w2, mis, b2, t2, rfl⟩ := numeric2_inv h3
      obtain ⟨w3, b3, rfl⟩ := (separator_iff (by decide)).1 h4
      obtain ⟨w4, ss, b4, t4, rfl⟩ := numeric2_inv h5
      obtain ⟨frac, tf, rfl⟩ := nanosecond_inv h6
      obtain ⟨w5, b5, e5⟩ := trimStart_split s6
      obtain ⟨z, tz, ez⟩ := zulu_inv h7
      obtain ⟨w6, b6, e6⟩ := trimStart_split s7
      rw [h8, List.append_nil] at e6
      refine ⟨⟨w0, w1, w2, w3, w4, w5, w6, hs, mis, ss, frac, z, b0, b1, b2, b3, b4, b5, b6,
        t0, t2, t4, tf, tz, ?_⟩, hc.1, hc.2.1, hc.2.2.1, hc.2.2.2.1, hc.2.2.2.2⟩
      rw [← e6, ← ez, ← e5]
    · cases h8
  · rintro ⟨⟨w0, w1, w2, w3, w4, w5, w6, hs, mis, ss, frac, z, b0, b1, b2, b3, b4, b5, b6,
      t0, t2, t4, tf, tz, rfl⟩, c1, c2, c3, c4, c5⟩
    have hcolon : ∀ w t : Str, Blank w → NoDigit (w ++ ':' :: t) := fun w t hw =>
      noDigit_blank hw (noDigit_cons (by decide))
    obtain ⟨c, zr, hz, hzc⟩ := zone_head tz
    obtain ⟨f1, f2, f3⟩ := zone_facts hzc
    have hzd : NoDigit (w5 ++ (z ++ w6)) := noDigit_blank b5 (by rw [hz]; exact noDigit_cons f2)
    have hzdot : ∀ c ∈ (w5 ++ (z ++ w6)).head?, c ≠ '.' := by
      cases w5 with
      | nil => rw [hz]; intro d hd; cases hd; exact f3
      | cons d w5 => intro e he; cases he; exact (ws_facts (b5 d (by simp))).2.1
    have hzw : ∀ c ∈ (z ++ w6).head?, isWhitespace c = false := by
      rw [hz]; intro d hd; cases hd; exact f1
    have hfd : NoDigit (frac ++ (w5 ++ (z ++ w6))) := by
      cases tf with
      | none => exact hzd
      | some ds => exact noDigit_cons (by decide)
    have hend : trimStart w6 = [] := by
      have := dropWhile_blank w6 [] b6 (by simp)
      rwa [List.append_nil] at this
    rw [clockFields, numeric2_of b0 t0 (hcolon _ _ b1)]
    simp only [Option.bind_eq_bind, Option.bind_some]
    rw [(separator_iff (by decide)).2 ⟨w1, b1, rfl⟩, Option.bind_some, numeric2_of b2 t2 (hcolon _ _ b3)]
    simp only [Option.bind_some]
    rw [(separator_iff (by decide)).2 ⟨w3, b3, rfl⟩, Option.bind_some, numeric2_of b4 t4 hfd]
    simp only [Option.bind_some]
    rw [nanosecond_of tf hzd hzdot]
    simp only [Option.bind_some]
    rw [dropWhile_blank w5 _ b5 hzw, zulu_of tz]
    simp only [Option.bind_some]
    rw [if_pos ⟨c1, c2, c3, c4, c5⟩, hend]

theorem clockFields_show (h mi sec ns : Nat) (hh : h ≤ 23) (hm : mi ≤ 59) (hs : sec ≤ 60)
    (hn : ns < 1000000000) :
    clockFields (fixed 2 h ++ ':' :: (fixed 2 mi ++ ':' :: (fixed 2 sec ++ (showFraction ns ++ ['Z'])))) =
      some (h, mi, sec, ns, 0, []) := by
  rw [clockFields, numeric2_fixed _ _ (by omega)]
  simp only [Option.bind_eq_bind, Option.bind_some]
  rw [separator_cons _ _ (by decide)]
  simp only [Option.bind_some]
  rw [numeric2_fixed _ _ (by omega)]
  simp only [Option.bind_some]
  rw [separator_cons _ _ (by decide)]
  simp only [Option.bind_some]
  rw [numeric2_fixed _ _ (by omega)]
  simp only [Option.bind_some]
  rw [nanosecond_show ns _ hn (by intro c hc; simp at hc; subst hc; rfl)
    (by intro c hc; simp at hc; subst hc; decide)]
  simp only [Option.bind_some]
  rw [show zulu (trimStart ['Z']) = some (0, []) by decide]
  simp only [Option.bind_some]
  rw [if_pos (by omega)]
  rfl

/-- Offsets are whole minutes. -/
theorem zone_minutes {z : Str} {off : Int} (h : Zone z off) : off % 60 = 0 := by
  cases h <;> push_cast <;> omega

theorem fraction_lt {frac : Str} {ns : Nat} (h : Rfc3339Fraction frac ns) : ns < 1000000000 := by
  cases h with
  | none => decide
  | some ds hd =>
    have h9 : (ds.take 9).length ≤ 9 := List.length_take_le _ _
    have := decimal_lt (ds.take 9) fun c hc => ((isDigits_iff ds).1 hd).2 c (List.mem_of_mem_take hc)
    rw [nanos]
    generalize ds.take 9 = ds at *
    have hm := Nat.mul_lt_mul_of_lt_of_le this (Nat.le_refl (10 ^ (9 - ds.length))) (Nat.pow_pos (by decide))
    rwa [← Nat.pow_add, show ds.length + (9 - ds.length) = 9 by omega] at hm

theorem readDateTime_of {s : Str} {x : Date} {h mi sec ns : Nat} {off : Int}
    (hs : DateTimeText s x h mi sec ns off) :
    readDateTime s = toDateTime (localMoment x h mi sec ns) off := by
  obtain ⟨date, clock, c, rfl, hd, hc, hcl, c1, c2, c3, c4, c5, v1, v2, v3⟩ := hs
  have hc' : c = 'T' ∨ c = ' ' := by simpa using hc
  have hcd : Json.isDigit c = false := by rcases hc' with rfl | rfl <;> decide
  rw [readDateTime, parseDate_of hd (by omega) (noDigit_cons hcd)]
  simp only
  rw [if_pos hc', clockFields_iff.2 ⟨hcl, c1, c2, c3, c4, c5⟩]
  simp only
  rw [if_pos ((validDate_iff x).2 ⟨v1, v2, v3⟩)]

theorem readDateTime_cases (s : Str) : (readDateTime s = .err () ∧ ∀ x h mi sec ns off, ¬ DateTimeText s x h mi sec ns off) ∨
    ∃ x h mi sec ns off, DateTimeText s x h mi sec ns off := by
  by_cases hs : ∃ x h mi sec ns off, DateTimeText s x h mi sec ns off
  · exact .inr hs
  · refine .inl ⟨?_, fun x h mi sec ns off hh => hs ⟨x, h, mi, sec, ns, off, hh⟩⟩
    rw [readDateTime]
    split
    · rename_i x c s' hp
      obtain ⟨date, hd, rfl⟩ := parseDate_inv hp
      split
      · rename_i hc
        split
        · rename_i h mi sec ns off hcl
          obtain ⟨hcl, c1, c2, c3, c4, c5⟩ := clockFields_iff.1 hcl
          split
          · rename_i hv
            obtain ⟨v1, v2, v3⟩ := (validDate_iff x).1 hv
            exact absurd ⟨x, h, mi, sec, ns, off, date, s', c, rfl, hd, by simpa using hc, hcl, c1, c2, c3, c4,
              c5, v1, v2, v3⟩ hs
          · rfl
        · rfl
      · rfl
    · rfl

/-- What reading makes of a local time and an offset of whole minutes. -/
theorem toDateTime_eq (m : Moment) (off : Int) (hm : m.Valid) (ho : off % 60 = 0) :
    toDateTime m off =
      if InRange ⟨m.sec - off, m.frac⟩ then .ok ⟨m.sec - off, m.frac⟩
      else if m.Leap ∧ m.sec - off = Moment.minSec - 1 then .panic else .err () := by
  obtain ⟨s, f⟩ := m
  obtain ⟨h1, h2, h3⟩ := hm
  simp only [Moment.minSec, Moment.maxSec] at h1 h2 h3
  have hadd : (Moment.add (ε := Unit) ⟨s, 0⟩ (-off)) =
      if InRange ⟨s - off, f⟩ then .ok ⟨s - off, 0⟩ else .panic := by
    have hp : Moment.plus ⟨s, 0⟩ (-off) = ⟨s - off, 0⟩ := by
      simp only [Moment.plus, Moment.ofNanos]
      rw [if_neg (by omega)]
      congr 1 <;> omega
    have hv : (⟨s - off, 0⟩ : Moment).Valid ↔ InRange ⟨s - off, f⟩ := by
      simp only [Moment.Valid, InRange, Moment.minSec, Moment.maxSec]; omega
    simp only [Moment.add, Moment.checkedAdd, hp]
    by_cases hr : InRange ⟨s - off, f⟩
    · rw [if_pos (hv.2 hr), if_pos hr]
    · rw [if_neg fun h => hr (hv.1 h), if_neg hr]
  have hmin : Moment.minusOffset (ε := Unit) ⟨s, f⟩ off =
      if InRange ⟨s - off, f⟩ then .ok ⟨s - off, f⟩ else .panic := by
    simp only [Moment.minusOffset, hadd]
    split_ifs <;> rfl
  have hchk : (Moment.plus ⟨s, f⟩ (-off)).Valid ↔
      InRange ⟨s - off, f⟩ ∨ (1000000000 ≤ f ∧ s - off = Moment.minSec - 1) := by
    simp only [Moment.plus, InRange, Moment.ofNanos, Moment.minSec]
    split_ifs <;> simp only [Moment.Valid, Moment.minSec, Moment.maxSec] <;> omega
  have hlp : (⟨s, f⟩ : Moment).Leap ↔ 1000000000 ≤ f := Iff.rfl
  rw [← hlp] at hchk
  simp only [toDateTime, Moment.checkedAdd, hmin]
  by_cases hr : InRange ⟨s - off, f⟩
  · rw [if_pos (hchk.2 (.inl hr)), if_pos hr, if_pos hr]
  · rw [if_neg hr, if_neg hr]
    by_cases hl : (⟨s, f⟩ : Moment).Leap ∧ s - off = Moment.minSec - 1
    · rw [if_pos (hchk.2 (.inr hl)), if_pos hl]
    · rw [if_neg fun h => (hchk.1 h).elim hr hl, if_neg hl]

/-- The day numbers of representable dates. -/
theorem day_bounds (x : Date) (hx : IsDate x) (h1 : -262144 ≤ x.year) (h2 : x.year ≤ 262143) :
    -96465658 ≤ numDaysFromCe x - epochDay ∧ numDaysFromCe x - epochDay ≤ 95026601 := by
  have hb := numDays_bounds x hx
  have m1 := yearStart_mono _ _ h1
  have m2 := yearStart_mono (x.year + 1) 262144 (by omega)
  rw [show yearStart (-262144) = -95746496 by decide] at m1
  rw [show yearStart 262144 = 95745764 by decide] at m2
  simp only [epochDay]
  omega

theorem first_day (x : Date) (hx : IsDate x) (h : numDaysFromCe x - epochDay = -96465658) :
    x = ⟨-262144, 1, 1⟩ := by
  have h1 := fromDays_numDays x hx
  have h2 := fromDays_numDays ⟨-262144, 1, 1⟩ (by unfold IsDate; decide)
  rw [show numDaysFromCe ⟨-262144, 1, 1⟩ = -95746495 by decide] at h2
  rw [show numDaysFromCe x = -95746495 by simp only [epochDay] at h; omega, h2] at h1
  exact h1.symm

theorem dateTimeText_facts {s : Str} {x : Date} {h mi sec ns : Nat} {off : Int}
    (hs : DateTimeText s x h mi sec ns off) : ns < 1000000000 ∧ off % 60 = 0 ∧ h ≤ 23 ∧ mi ≤ 59 ∧ sec ≤ 60 ∧
      -86400 < off ∧ off < 86400 ∧ IsDate x ∧ -96465658 ≤ numDaysFromCe x - epochDay ∧
      numDaysFromCe x - epochDay ≤ 95026601 := by
  obtain ⟨date, clock, c, rfl, hd, hc, hcl, c1, c2, c3, c4, c5, v1, v2, v3⟩ := hs
  obtain ⟨b1, b2⟩ := day_bounds x v1 v2 v3
  obtain ⟨w0, w1, w2, w3, w4, w5, w6, hs, mis, ss, frac, z, -, -, -, -, -, -, -, -, -, -, tf, tz, -⟩ := hcl
  exact ⟨fraction_lt tf, zone_minutes tz, c1, c2, c3, c4, c5, v1, b1, b2⟩

/-- What reading makes of a text. -/
theorem readDateTime_eq {s : Str} {x : Date} {h mi sec ns : Nat} {off : Int}
    (hs : DateTimeText s x h mi sec ns off) : readDateTime s =
      if InRange ⟨(localMoment x h mi sec ns).sec - off, (localMoment x h mi sec ns).frac⟩ then
        .ok ⟨(localMoment x h mi sec ns).sec - off, (localMoment x h mi sec ns).frac⟩
      else if sec = 60 ∧ (localMoment x h mi sec ns).sec - off = Moment.minSec - 1 then .panic else .err () := by
  obtain ⟨f1, f2, f3, f4, f5, f6, f7, f8, f9, f10⟩ := dateTimeText_facts hs
  rw [readDateTime_of hs, toDateTime_eq _ off _ f2]
  · have : (localMoment x h mi sec ns).Leap ↔ sec = 60 := by
      simp only [Moment.Leap, localMoment]
      split_ifs with hc
      · exact ⟨fun _ => hc, fun _ => by omega⟩
      · exact ⟨fun _ => by omega, fun e => absurd e hc⟩
    simp only [this]
  · simp only [Moment.Valid, localMoment, Moment.minSec, Moment.maxSec]
    split_ifs <;> omega

theorem saysMoment_iff {x : Date} {h mi sec ns : Nat} {off : Int} (hsec : sec ≤ 60) (m : Moment) :
    SaysMoment (numDaysFromCe x - epochDay) h mi ns off sec m ↔
      m = ⟨(localMoment x h mi sec ns).sec - off, (localMoment x h mi sec ns).frac⟩ := by
  constructor
  · rintro (⟨_, h⟩ | _)
    · simp only [localMoment, if_neg (show ¬ sec = 60 by omega), secondOf]
    · simp only [localMoment, if_true, secondOf]
  · rintro rfl
    by_cases hc : sec = 60
    · subst hc
      simp only [localMoment, if_true]
      exact .leap
    · simp only [localMoment, if_neg hc]
      exact .ordinary sec (by omega)

end Chrono
end Oid4vci
