import Verif.Lemmas.Leap
import Verif.Props.Dated

/-! C108, C109, C110: leap seconds in date-times. -/

namespace Oid4vci

open Spec
open Chrono

/-! ### C108: reading a date-time -/

/-- C108. Reading a date-time text never panics. -/
def C108_statement : Prop := ∀ s, readDateTime s ≠ .panic

/-- C108. The texts that are read, and the moment read from each. -/
theorem C108_read (s : Str) (m : Moment) : readDateTime s = .ok m ↔ MomentText s m := by
  constructor
  · intro h
    rcases readDateTime_cases s with ⟨he, -⟩ | ⟨x, hh, mi, sec, ns, off, hs⟩
    · rw [he] at h; cases h
    · have hsec := (dateTimeText_facts hs).2.2.2.2.1
      have hx := (dateTimeText_facts hs).2.2.2.2.2.2.2.1
      rw [readDateTime_eq hs] at h
      split at h
      · rename_i hr
        cases h
        exact ⟨x, hh, mi, sec, ns, off, _, hs, (dayNumber_iff x _).2 ⟨hx, rfl⟩, (saysMoment_iff hsec _).2 rfl, hr⟩
      · split at h <;> cases h
  · rintro ⟨x, hh, mi, sec, ns, off, day, hs, hday, hm, hr⟩
    obtain ⟨-, rfl⟩ := (dayNumber_iff x day).1 hday
    have hsec := (dateTimeText_facts hs).2.2.2.2.1
    obtain rfl := (saysMoment_iff hsec m).1 hm
    rw [readDateTime_eq hs, if_pos hr]

/-- C108. The texts on which reading panics. -/
theorem C108_panics_iff (s : Str) : readDateTime s = .panic ↔ BeforeTheBeginning s := by
  constructor
  · intro h
    rcases readDateTime_cases s with ⟨he, -⟩ | ⟨x, hh, mi, sec, ns, off, hs⟩
    · rw [he] at h; cases h
    · obtain ⟨f1, f2, f3, f4, f5, f6, f7, f8, f9, f10⟩ := dateTimeText_facts hs
      rw [readDateTime_eq hs] at h
      split at h
      · cases h
      · split at h
        · rename_i hr hc
          obtain ⟨rfl, hc⟩ := hc
          simp only [localMoment, if_true, Moment.minSec] at hc
          have hd : numDaysFromCe x - epochDay = -96465658 := by omega
          have hx := first_day x f8 hd
          have ho : off = ((hh * 3600 + mi * 60 + 60 : Nat) : Int) := by omega
          subst hx ho
          exact ⟨hh, mi, ns, hs⟩
        · cases h
  · rintro ⟨hh, mi, ns, hs⟩
    have e : (localMoment ⟨-262144, 1, 1⟩ hh mi 60 ns).sec - ((hh * 3600 + mi * 60 + 60 : Nat) : Int) =
        Moment.minSec - 1 := by
      simp only [localMoment, if_true, Moment.minSec]
      rw [show numDaysFromCe ⟨-262144, 1, 1⟩ - epochDay = -96465658 by decide]
      omega
    rw [readDateTime_eq hs, if_neg, if_pos ⟨rfl, e⟩]
    rw [e]
    simp only [InRange, Moment.minSec]
    omega

/-- A text that panics. -/
def Ex.beforeTheBeginning : Str := str! "-262144-01-01T00:00:60+00:01"

theorem Ex.reading_panics : readDateTime Ex.beforeTheBeginning = .panic := by decide +kernel

theorem C108_refuted : ¬ C108_statement := fun h => h _ Ex.reading_panics

/-- C108. The witness, which the main model reads as the first representable instant. -/
theorem C108_violation : ∃ s, readDateTime s = .panic ∧ BeforeTheBeginning s ∧ Chrono.parseTime s = some Time.min :=
  ⟨_, Ex.reading_panics, (C108_panics_iff _).1 Ex.reading_panics, by decide +kernel⟩

/-- C108. Without a second 60 in the year -262144 reading does not panic. -/
theorem C108_no_panic_partial (s : Str)
    (h : ∀ x h mi sec ns off, DateTimeText s x h mi sec ns off → sec ≠ 60 ∨ x.year ≠ -262144) :
    readDateTime s ≠ .panic := by
  intro hp
  obtain ⟨hh, mi, ns, hs⟩ := (C108_panics_iff s).1 hp
  rcases h _ _ _ _ _ _ hs with h | h <;> exact h rfl

/-- C108. The reading of the main model is this one with the leap second counted as the second after it: they
differ on the texts that panic and in the leap second of the last representable minute, which only this one
reads. -/
theorem C108_model (s : Str) (t : Time) : Chrono.parseTime s = some t ↔
    (∃ m, readDateTime s = .ok m ∧ m.nanos = t ∧ Time.Valid t) ∨
    ∃ h mi ns, DateTimeText s ⟨-262144, 1, 1⟩ h mi 60 ns ((h * 3600 + mi * 60 + 60 : Nat) : Int) ∧
      t = Time.min + ns := by
  rw [parseTime_iff]
  constructor
  · intro hi
    obtain ⟨date, clock, c, x, hh, mi, sec, ns, off, day, e, hd, hc, hcl, c1, c2, c3, c4, c5, v1, v2, v3, hday, ht,
      hv⟩ := id hi
    have hs : DateTimeText s x hh mi sec ns off := ⟨date, clock, c, e, hd, hc, hcl, c1, c2, c3, c4, c5, v1, v2, v3⟩
    obtain ⟨-, rfl⟩ := (dayNumber_iff x day).1 hday
    obtain ⟨f1, f2, f3, f4, f5, f6, f7, f8, f9, f10⟩ := dateTimeText_facts hs
    have hn : (⟨(localMoment x hh mi sec ns).sec - off, (localMoment x hh mi sec ns).frac⟩ : Moment).nanos = t := by
      rw [ht]
      simp only [Moment.nanos, localMoment, instantOf]
      refine @id (@Eq Int _ _) ?_
      split_ifs <;> push_cast <;> omega
    by_cases hr : InRange ⟨(localMoment x hh mi sec ns).sec - off, (localMoment x hh mi sec ns).frac⟩
    · exact .inl ⟨_, by rw [readDateTime_eq hs, if_pos hr], hn, hv⟩
    · right
      have hv1 : @LE.le Int _ (-8334632851200000000000) t := hv.1
      have hv2 : @LE.le Int _ t 8210298412799999999999 := hv.2
      have key : sec = 60 ∧ (localMoment x hh mi sec ns).sec - off = Moment.minSec - 1 := by
        simp only [InRange] at hr
        rw [← hn] at hv1 hv2
        simp only [Moment.nanos] at hv1 hv2
        have hf : (localMoment x hh mi sec ns).frac = if sec = 60 then 1000000000 + ns else ns := rfl
        rw [hf] at hv1 hv2
        generalize (localMoment x hh mi sec ns).sec = z at *
        simp only [Moment.minSec]
        by_cases h60 : sec = 60
        · rw [if_pos h60] at hv1 hv2
          push_cast at hv1 hv2
          omega
        · rw [if_neg h60] at hv1 hv2
          omega
      obtain ⟨rfl, key⟩ := key
      have hd : numDaysFromCe x - epochDay = -96465658 := by
        simp only [localMoment, if_true, Moment.minSec] at key
        omega
      have hx := first_day x f8 hd
      have ho : off = ((hh * 3600 + mi * 60 + 60 : Nat) : Int) := by
        simp only [localMoment, if_true, Moment.minSec] at key
        omega
      subst hx ho
      refine ⟨hh, mi, ns, hs, ?_⟩
      rw [← hn]
      refine @id (@Eq Int _ _) ?_
      simp only [Moment.nanos, Time.min, localMoment, if_true]
      push_cast
      omega
  · rintro (⟨m, hm, ht, hv⟩ | ⟨hh, mi, ns, hs, rfl⟩)
    · obtain ⟨x, hh, mi, sec, ns, off, day, hs, hday, hm, hr⟩ := (C108_read s m).1 hm
      obtain ⟨date, clock, c, e, hd, hc, hcl, c1, c2, c3, c4, c5, v1, v2, v3⟩ := hs
      refine ⟨date, clock, c, x, hh, mi, sec, ns, off, day, e, hd, hc, hcl, c1, c2, c3, c4, c5, v1, v2, v3, hday, ?_,
        hv⟩
      rw [← ht]
      refine @id (@Eq Int _ _) ?_
      rcases hm with ⟨_, _⟩ | _
      · simp only [Moment.nanos, instantOf, secondOf]
      · simp only [Moment.nanos, instantOf, secondOf]; push_cast; omega
    · have hns := (dateTimeText_facts hs).1
      obtain ⟨date, clock, c, e, hd, hc, hcl, c1, c2, c3, c4, c5, v1, v2, v3⟩ := hs
      refine ⟨date, clock, c, _, hh, mi, 60, ns, _, -96465658, e, hd, hc, hcl, c1, c2, c3, c4, c5, v1, v2, v3,
        (dayNumber_iff _ _).2 ⟨v1, by decide⟩, ?_, ?_⟩
      · refine @id (@Eq Int _ _) ?_
        simp only [instantOf, Time.min]
        push_cast
        omega
      · refine @id (@LE.le Int _ _ _ ∧ @LE.le Int _ _ _) ?_
        simp only [Time.min, Time.max]
        omega

/-! ### C109: writing and reading back -/

/-- C109. Every date-time reads back as it was written. -/
def C109_statement : Prop := ∀ m : Moment, m.Valid → readDateTime m.written = .ok m

/-- C109. Outside leap seconds the text is that of the main model. -/
theorem C109_ordinary (m : Moment) (h : ¬ m.Leap) : m.written = Chrono.showTime m.nanos := by
  obtain ⟨s, f⟩ := m
  have hf : f < 1000000000 := by simpa [Moment.Leap] using h
  have e1 : (s * 1000000000 + (f : Int)) / 1000000000 = s := by omega
  have e2 : ((s * 1000000000 + (f : Int)) % 1000000000).toNat = f := by omega
  have hn : ¬ 1000000000 ≤ f := by omega
  simp only [Moment.written, Chrono.showTime, Moment.nanos, if_neg hn, e1, e2]

theorem written_text (m : Moment) (h : m.Valid) :
    ∃ x, numDaysFromCe x - epochDay = m.sec / 86400 ∧ DateTimeText m.written x ((m.sec % 86400).toNat / 3600)
      ((m.sec % 86400).toNat / 60 % 60)
      (if 1000000000 ≤ m.frac then (m.sec % 86400).toNat % 60 + 1 else (m.sec % 86400).toNat % 60)
      (if 1000000000 ≤ m.frac then m.frac - 1000000000 else m.frac) 0 := by
  obtain ⟨s, f⟩ := m
  obtain ⟨h1, h2, h3⟩ := h
  simp only [Moment.minSec, Moment.maxSec] at h1 h2 h3
  have hv := year_valid (s * 1000000000) (by
    refine @id (@LE.le Int _ _ _ ∧ @LE.le Int _ _ _) ?_
    simp only [Time.min, Time.max]
    omega)
  rw [show s * 1000000000 / 1000000000 = s by omega] at hv
  have hd := fromDays_isDate (s / 86400 + epochDay)
  have hn := numDays_fromDays (s / 86400 + epochDay)
  have hml : monthLength (fromDaysFromCe (s / 86400 + epochDay)).year
      (fromDaysFromCe (s / 86400 + epochDay)).month ≤ 31 := by
    simp only [monthLength]; split_ifs <;> omega
  obtain ⟨d1, d2, d3, d4⟩ := id hd
  simp only [Moment.written]
  generalize fromDaysFromCe (s / 86400 + epochDay) = x at *
  obtain ⟨sod, hsod⟩ : ∃ n : Nat, n = (s % 86400).toNat := ⟨_, rfl⟩
  rw [← hsod]
  obtain ⟨date, hdt, e⟩ := parseDate_inv (parseDate_show x ('T' :: (fixed 2 (sod / 3600) ++ ':' ::
    (fixed 2 (sod / 60 % 60) ++ ':' :: (fixed 2 (if 1000000000 ≤ f then sod % 60 + 1 else sod % 60) ++
      (showFraction (if 1000000000 ≤ f then f - 1000000000 else f) ++ ['Z'])))))
    (by omega) (by omega) (by omega))
  obtain ⟨hcl, c1, c2, c3, c4, c5⟩ := clockFields_iff.1 (clockFields_show (sod / 3600) (sod / 60 % 60)
    (if 1000000000 ≤ f then sod % 60 + 1 else sod % 60) (if 1000000000 ≤ f then f - 1000000000 else f)
    (by omega) (by omega) (by split_ifs <;> omega) (by split_ifs <;> omega))
  exact ⟨x, by omega, date, _, 'T', e, hdt, by decide, hcl, c1, c2, c3, c4, c5, hd, hv.1, hv.2⟩

/-- C109. What is read back from any written date-time: itself, unless it is a leap second that does not follow
the second 59 of a minute, which is read as the ordinary second it was written as. -/
theorem C109_read_back (m : Moment) (h : m.Valid) : readDateTime m.written =
    .ok (if m.Leap ∧ m.sec % 60 ≠ 59 then ⟨m.sec + 1, m.frac - 1000000000⟩ else m) := by
  obtain ⟨x, hx, ht⟩ := written_text m h
  obtain ⟨s, f⟩ := m
  obtain ⟨h1, h2, h3⟩ := h
  simp only [Moment.minSec, Moment.maxSec] at h1 h2 h3
  simp only at hx
  have hloc : localMoment x ((s % 86400).toNat / 3600) ((s % 86400).toNat / 60 % 60)
      (if 1000000000 ≤ f then (s % 86400).toNat % 60 + 1 else (s % 86400).toNat % 60)
      (if 1000000000 ≤ f then f - 1000000000 else f) =
      if (⟨s, f⟩ : Moment).Leap ∧ s % 60 ≠ 59 then ⟨s + 1, f - 1000000000⟩ else ⟨s, f⟩ := by
    simp only [localMoment, hx]
    by_cases hf : 1000000000 ≤ f
    · by_cases hs : s % 60 = 59
      · rw [if_neg (show ¬ ((⟨s, f⟩ : Moment).Leap ∧ s % 60 ≠ 59) from fun h => h.2 hs), if_pos hf, if_pos hf,
          if_pos (by omega), if_pos (by omega), Moment.mk.injEq]
        omega
      · rw [if_pos (show (⟨s, f⟩ : Moment).Leap ∧ s % 60 ≠ 59 from ⟨hf, hs⟩), if_pos hf, if_pos hf,
          if_neg (by omega), if_neg (by omega), Moment.mk.injEq]
        omega
    · rw [if_neg (show ¬ ((⟨s, f⟩ : Moment).Leap ∧ s % 60 ≠ 59) from fun h => hf h.1), if_neg hf, if_neg hf,
          if_neg (by omega), if_neg (by omega), Moment.mk.injEq]
      omega
  rw [readDateTime_eq ht, hloc, if_pos]
  · split <;> simp
  · simp only [InRange]
    split <;> simp only <;> omega

/-- C109. So exactly the date-times outside leap seconds, and the leap seconds at the end of a minute, read back
as they were written. -/
theorem C109_exact_partial (m : Moment) (h : m.Valid) :
    readDateTime m.written = .ok m ↔ m.Leap → OnTheMinute m := by
  rw [C109_read_back m h]
  constructor
  · intro e hl
    by_contra hn
    rw [if_pos ⟨hl, hn⟩] at e
    simp only [Res.ok.injEq] at e
    have := congrArg Moment.sec e
    simp only at this
    omega
  · intro hh
    rw [if_neg fun ⟨h1, h2⟩ => h2 (hh h1)]

/-- A leap second in the middle of a minute, which the library's constructors allow. -/
def Ex.midMinute : Moment := ⟨0, 1500000000⟩

theorem C109_violation : Ex.midMinute.Valid ∧ Ex.midMinute.written = str! "1970-01-01T00:00:01.500Z" ∧
    readDateTime Ex.midMinute.written = .ok ⟨1, 500000000⟩ := by decide +kernel

theorem C109_refuted : ¬ C109_statement := fun h => by
  have h1 := h Ex.midMinute C109_violation.1
  rw [C109_violation.2.2] at h1
  exact absurd h1 (by decide)

/-- C109. Every date-time that was read reads back as it is written again. -/
theorem C109_stable (s : Str) (m : Moment) (h : readDateTime s = .ok m) :
    m.Valid ∧ readDateTime m.written = .ok m := by
  obtain ⟨x, hh, mi, sec, ns, off, day, hs, hday, hm, hr⟩ := (C108_read s m).1 h
  obtain ⟨f1, f2, f3, f4, f5, f6, f7, f8, f9, f10⟩ := dateTimeText_facts hs
  have hv : m.Valid ∧ (m.Leap → OnTheMinute m) := by
    simp only [InRange] at hr
    rcases hm with ⟨_, _⟩ | _ <;>
      simp only [Moment.Valid, Moment.minSec, Moment.maxSec, Moment.Leap, OnTheMinute, secondOf] at hr ⊢ <;> omega
  exact ⟨hv.1, (C109_exact_partial m hv.1).2 hv.2⟩

/-- C109. A leap second is written with second 60. -/
theorem C109_second_60 (m : Moment) (h : m.Valid) (hl : m.Leap) (ho : OnTheMinute m) :
    ∃ x h mi ns, DateTimeText m.written x h mi 60 ns 0 := by
  obtain ⟨x, -, ht⟩ := written_text m h
  simp only [Moment.Leap, OnTheMinute] at hl ho
  rw [if_pos hl, if_pos hl, show (m.sec % 86400).toNat % 60 + 1 = 60 by omega] at ht
  exact ⟨x, _, _, _, ht⟩

/-! ### C110: lifetimes and periods -/

/-- C110. The sum of a creation time and a lifetime, and when it panics. -/
theorem C110_expiry {ε : Type} (m : Moment) (h : m.Valid) (n : UInt32) : m.add (ε := ε) (n.toNat : Int) =
    if n.toNat = 0 then .ok m
    else if m.sec + n.toNat ≤ 8210298412799 then .ok ⟨m.sec + n.toNat, m.frac % 1000000000⟩
    else .panic := by
  obtain ⟨s, f⟩ := m
  obtain ⟨h1, h2, h3⟩ := id h
  simp only [Moment.minSec, Moment.maxSec] at h1 h2 h3
  generalize n.toNat = k
  by_cases hk : k = 0
  · subst hk
    have hp : Moment.plus ⟨s, f⟩ (((0 : Nat) : Int)) = ⟨s, f⟩ := by
      simp only [Moment.plus, Moment.ofNanos]
      split_ifs <;> first | omega | (rw [Moment.mk.injEq]; omega)
    rw [if_pos rfl]
    simp only [Moment.add, Moment.checkedAdd, hp, if_pos h]
  · rw [if_neg hk]
    have hp : Moment.plus ⟨s, f⟩ (k : Int) = ⟨s + k, f % 1000000000⟩ := by
      simp only [Moment.plus, Moment.ofNanos]
      split_ifs <;> first | omega | (rw [Moment.mk.injEq]; omega)
    simp only [Moment.add, Moment.checkedAdd, hp]
    by_cases hr : s + k ≤ 8210298412799
    · rw [if_pos hr, if_pos]
      simp only [Moment.Valid, Moment.minSec, Moment.maxSec]
      omega
    · rw [if_neg hr, if_neg]
      simp only [Moment.Valid, Moment.minSec, Moment.maxSec]
      omega

/-- C110. Sums, of negative numbers of seconds too, are what the elapsed time says; they leave the leap second
unless nothing is added. -/
theorem C110_sum (m : Moment) (h : m.Valid) (n : Int) :
    elapsed m (m.plus n) = n * 1000000000 ∧ (n ≠ 0 → ¬ (m.plus n).Leap) := by
  obtain ⟨s, f⟩ := m
  obtain ⟨h1, h2, h3⟩ := h
  simp only [Moment.plus, Moment.ofNanos, elapsed, Moment.Leap] at *
  by_cases c1 : 1000000000 ≤ f
  · by_cases c2 : 2000000000 - (f : Int) ≤ n * 1000000000
    · simp only [if_pos c1, if_pos c2]
      split_ifs <;> omega
    · by_cases c3 : n * 1000000000 < -(f : Int)
      · simp only [if_pos c1, if_neg c2, if_pos c3]
        split_ifs <;> omega
      · simp only [if_pos c1, if_neg c2, if_neg c3]
        split_ifs <;> omega
  · simp only [if_neg c1]
    split_ifs <;> omega

/-- C110. A nonce is refused exactly when more than its lifetime has elapsed since its creation; the check panics
exactly when the lifetime reaches past the last representable second. -/
theorem C110_nonce (now created : Moment) (n : UInt32) (hl : ¬ now.Leap) (hc : created.Valid) :
    (checkExpiry now created n = .ok () ↔ created.sec + n.toNat ≤ 8210298412799 ∧
      elapsed created now ≤ n.toNat * 1000000000) ∧
    (checkExpiry now created n = .panic ↔ 8210298412799 < created.sec + n.toNat) := by
  obtain ⟨h1, h2, h3⟩ := id hc
  simp only [Moment.minSec, Moment.maxSec] at h1 h2 h3
  have hl' : now.frac < 1000000000 := by simpa [Moment.Leap] using hl
  have hadd := C110_expiry (ε := Moment × Moment) created hc n
  simp only [checkExpiry]
  generalize n.toNat = k at *
  rw [hadd]
  by_cases hk : k = 0
  · subst hk
    rw [if_pos rfl]
    simp only
    by_cases hb : created.Before now
    · rw [if_pos hb]
      simp only [Moment.Before] at hb
      simp only [elapsed, reduceCtorEq, false_iff]
      constructor
      · split_ifs <;> omega
      · omega
    · rw [if_neg hb]
      simp only [Moment.Before] at hb
      simp only [elapsed, true_iff, reduceCtorEq, false_iff]
      constructor
      · split_ifs <;> omega
      · omega
  · rw [if_neg hk]
    by_cases hr : created.sec + k ≤ 8210298412799
    · rw [if_pos hr]
      simp only
      by_cases hb : (⟨created.sec + k, created.frac % 1000000000⟩ : Moment).Before now
      · rw [if_pos hb]
        simp only [Moment.Before] at hb
        simp only [elapsed, reduceCtorEq, false_iff]
        constructor
        · split_ifs <;> omega
        · omega
      · rw [if_neg hb]
        simp only [Moment.Before] at hb
        simp only [elapsed, true_iff, reduceCtorEq, false_iff]
        constructor
        · split_ifs <;> omega
        · omega
    · rw [if_neg hr]
      simp only [reduceCtorEq, false_iff, true_iff]
      omega

/-- C110. Against a time outside leap seconds, the comparisons are those of the main model except in the second
that follows the leap second, where a leap second counts as past. -/
theorem C110_compare (now t : Moment) (hl : ¬ now.Leap) (ht : t.Valid) :
    (t.Before now ↔ t.nanos < now.nanos ∨ t.Leap ∧ now.sec = t.sec + 1) ∧
    (now.Before t ↔ now.nanos < t.nanos ∧ ¬ (t.Leap ∧ now.sec = t.sec + 1)) := by
  obtain ⟨h1, h2, h3⟩ := ht
  simp only [Moment.Leap, Moment.Before, Moment.nanos] at *
  omega

/-- C110. So a token that expires in a leap second is refused from the next minute on, and one that is not valid
before a leap second is accepted from the next minute on. -/
theorem C110_period (now : Moment) (hl : ¬ now.Leap) (t : Moment) (ht : t.Leap) :
    (inPeriod now none (some t) = true ↔ now.sec ≤ t.sec) ∧ (inPeriod now (some t) none = true ↔ t.sec < now.sec) := by
  simp only [Moment.Leap] at hl ht
  simp only [inPeriod, Bool.and_true, Bool.true_and, Bool.not_eq_true']
  rw [decide_eq_false_iff_not, decide_eq_false_iff_not]
  simp only [Moment.Before]
  omega

/-- C110. Outside leap seconds the check is that of the main model. -/
theorem C110_ordinary (now created : Moment) (n : UInt32) (hn : ¬ now.Leap) (hc : created.Valid)
    (hl : ¬ created.Leap) :
    (checkExpiry now created n = .panic ↔ Time.addSeconds (ε := Unit) created.nanos n = .panic) ∧
    (checkExpiry now created n = .ok () ↔
      ∃ e, Time.addSeconds (ε := Unit) created.nanos n = .ok e ∧ ¬ e < (now.nanos : Time)) := by
  obtain ⟨h1, h2⟩ := C110_nonce now created n hn hc
  rw [h1, h2]
  have hn' : now.frac < 1000000000 := by simpa [Moment.Leap] using hn
  have hl' : created.frac < 1000000000 := by simpa [Moment.Leap] using hl
  generalize hk : n.toNat = k
  have hb : @LE.le Int _ (created.nanos + n.toNat * Time.nsPerSec) Time.max ↔ created.sec + k ≤ 8210298412799 := by
    simp only [Moment.nanos, Time.nsPerSec, Time.max, hk]
    omega
  have he : elapsed created now ≤ k * 1000000000 ↔
      ¬ (created.nanos + n.toNat * Time.nsPerSec : Int) < now.nanos := by
    rw [elapsed, if_neg (by omega)]
    simp only [Moment.nanos, Time.nsPerSec, hk]
    omega
  simp only [Time.addSeconds]
  by_cases hr : created.sec + k ≤ 8210298412799
  · rw [if_pos (hb.2 hr)]
    simp only [reduceCtorEq, iff_false]
    refine ⟨by omega, ⟨fun h => ⟨_, rfl, he.1 h.2⟩, ?_⟩⟩
    rintro ⟨e, h, h'⟩
    cases h
    exact ⟨hr, he.2 h'⟩
  · rw [if_neg fun h => hr (hb.1 h)]
    simp only [iff_true, reduceCtorEq, false_and, exists_false, iff_false]
    exact ⟨by omega, fun h => hr h.1⟩

end Oid4vci

namespace Oid4vci.Ex
open Spec Chrono

/-! The leap second at the end of 2016. -/

def leapText : Str := str! "2016-12-31T23:59:60.250Z"
def leapMoment : Moment := ⟨1483228799, 1250000000⟩

theorem leap_read : readDateTime leapText = .ok leapMoment := by decide +kernel
example : leapMoment.Valid ∧ leapMoment.Leap ∧ OnTheMinute leapMoment := by unfold OnTheMinute; decide
example : leapMoment.written = leapText := by decide +kernel
example : MomentText leapText leapMoment := (C108_read _ _).1 leap_read
example : Chrono.parseTime leapText = some 1483228800250000000 := by decide +kernel

/-- In another zone. -/
example : readDateTime (str! "2017-01-01T00:59:60.25+01:00") = .ok leapMoment := by decide +kernel

/-- The last representable leap second, which the main model does not read. -/
example : readDateTime (str! "+262143-12-31T23:59:60Z") = .ok ⟨8210298412799, 1000000000⟩ ∧
    Chrono.parseTime (str! "+262143-12-31T23:59:60Z") = none := by decide +kernel

/-- Around the text that panics: an offset of one minute less or more, a second less, a day later. -/
example : readDateTime (str! "-262144-01-01T00:00:60+00:00") = .ok ⟨-8334632851141, 1000000000⟩ ∧
    readDateTime (str! "-262144-01-01T00:00:60+00:02") = .err () ∧
    readDateTime (str! "-262144-01-01T00:00:59+00:01") = .err () ∧
    readDateTime (str! "-262144-01-02T00:00:60+00:01") = .ok ⟨-8334632764801, 1000000000⟩ ∧
    readDateTime (str! "-262144-01-01T12:30:60.5+12:31") = .panic := by decide +kernel

/-- Half a second before, in, and after the leap second: a nonce of one second. -/
example : checkExpiry ⟨1483228800, 250000000⟩ leapMoment 1 = .ok () ∧
    checkExpiry ⟨1483228800, 250000001⟩ leapMoment 1 =
      .err (⟨1483228800, 250000001⟩, ⟨1483228800, 250000000⟩) ∧
    elapsed leapMoment ⟨1483228800, 250000000⟩ = 1000000000 ∧
    checkExpiry ⟨1483228799, 750000000⟩ leapMoment 0 = .ok () := by decide
example : checkExpiry ⟨0, 0⟩ ⟨8210298412799, 0⟩ 1 = .panic := by decide
example : leapMoment.plus (-1) = ⟨1483228799, 250000000⟩ ∧ leapMoment.plus (-2) = ⟨1483228798, 250000000⟩ ∧
    leapMoment.plus 2 = ⟨1483228801, 250000000⟩ := by decide

/-- A token until the leap second, at the first instant of the next minute: the main model still accepts it. -/
example : inPeriod ⟨1483228800, 0⟩ none (some leapMoment) = false ∧
    inPeriod ⟨1483228799, 999999999⟩ none (some leapMoment) = true ∧
    inPeriod ⟨1483228799, 999999999⟩ (some leapMoment) none = false ∧
    inPeriod ⟨1483228800, 0⟩ (some leapMoment) none = true ∧
    leapMoment.nanos > (⟨1483228800, 0⟩ : Moment).nanos := by decide

/-- A text to which `C108_no_panic_partial` applies. -/
example : readDateTime (str! "-262144-01-01T00:00:59+00:01") ≠ .panic := by decide +kernel

end Oid4vci.Ex
