import Verif.Lemmas.TimeFault
import Verif.Props.Leap
import Verif.Props.Unreadable

/-! C124: what is reported about a text that is not a date-time. -/

namespace Oid4vci

open Spec
open Chrono Reading

/-- C124. The message about a text is that of the first thing wrong with it. -/
theorem C124_exact (s m : Str) : (parseError s).map ParseError.text = some m ↔ TimeFault s m := by
  constructor
  · intro h
    unfold parseError at h
    rw [scan_date] at h
    cases hd : scanParts dateParts s with
    | error e =>
      simp only [hd, Option.map_some, Option.some.injEq] at h
      obtain ⟨before, after, p, r, h1, h2, h3⟩ := (scan_error dateParts).1 hd
      exact .date before after p s r m h1 h2 (h ▸ h3)
    | ok r =>
      have hb := begins_iff.2 hd
      cases r with
      | nil =>
        simp only [hd, Option.map_some, Option.some.injEq] at h
        subst h
        exact .dateOnly s hb
      | cons c r =>
        simp only [hd] at h
        by_cases hc : c = 'T' ∨ c = ' '
        · have hc' : c ∈ ['T', ' '] := by simpa using hc
          rw [if_pos hc, scan_clock] at h
          cases hk : scanParts clockParts r with
          | error e =>
            simp only [hk, Option.map_some, Option.some.injEq] at h
            obtain ⟨before, after, p, r', h1, h2, h3⟩ := (scan_error clockParts).1 hk
            exact .clock before after p s c r r' m hb hc' h1 h2 (h ▸ h3)
          | ok r' =>
            have hb' := begins_iff.2 hk
            cases r' with
            | cons d r' =>
              simp only [hk, Option.map_some, Option.some.injEq] at h
              subst h
              exact .trailing s c r _ hb hc' hb' (by simp)
            | nil =>
              simp only [hk] at h
              cases hr : readDateTime s with
              | ok t => simp [hr] at h
              | panic => simp [hr] at h
              | err e =>
                simp only [hr, Option.map_some, Option.some.injEq] at h
                subst h
                refine .range s c r hb hc' hb' (fun t ht => ?_) (fun ht => ?_)
                · rw [(C108_read s t).2 ht] at hr; cases hr
                · rw [(C108_panics_iff s).2 ht] at hr; cases hr
        · rw [if_neg hc] at h
          simp only [Option.map_some, Option.some.injEq] at h
          subst h
          exact .between s c r hb (by simpa using hc)
  · intro h
    unfold parseError
    rw [scan_date]
    cases h with
    | date before after p _ r _ h1 h2 h3 =>
      obtain ⟨e, -, rfl⟩ := scan_fault h3
      rw [(scan_error dateParts).2 ⟨before, after, p, r, h1, h2, h3⟩]
      rfl
    | dateOnly _ hb => rw [begins_scan hb]; rfl
    | between _ c r hb hc =>
      rw [begins_scan hb]
      simp only
      rw [if_neg (by simpa using hc)]
      rfl
    | clock before after p _ c r r' _ hb hc h1 h2 h3 =>
      obtain ⟨e, -, rfl⟩ := scan_fault h3
      rw [begins_scan hb]
      simp only
      rw [if_pos (by simpa using hc), scan_clock, (scan_error clockParts).2 ⟨before, after, p, r', h1, h2, h3⟩]
      rfl
    | trailing _ c r r' hb hc hb' hne =>
      rw [begins_scan hb]
      simp only
      rw [if_pos (by simpa using hc), scan_clock, begins_scan hb']
      cases r' with
      | nil => exact absurd rfl hne
      | cons d r' => rfl
    | range _ c r hb hc hb' h1 h2 =>
      rw [begins_scan hb]
      simp only
      rw [if_pos (by simpa using hc), scan_clock, begins_scan hb']
      simp only
      cases hr : readDateTime s with
      | ok t => exact absurd ((C108_read s t).1 hr) (h1 t)
      | panic => exact absurd ((C108_panics_iff s).1 hr) h2
      | err e => rfl

/-- C124. Nothing is wrong with a text when it is read or makes the reading panic. -/
theorem C124_none (s : Str) : (∀ m, ¬ TimeFault s m) ↔ (∃ m, MomentText s m) ∨ BeforeTheBeginning s := by
  have h0 : (∀ m, ¬ TimeFault s m) ↔ parseError s = none := by
    simp only [← C124_exact]
    cases parseError s <;> simp
  rw [h0, parseError_none, ← C108_panics_iff]
  simp only [← C108_read]
  cases readDateTime s <;> simp

/-- C124. One thing is wrong. -/
theorem C124_unique {s m m' : Str} (h : TimeFault s m) (h' : TimeFault s m') : m = m' := by
  rw [← C124_exact] at h h'
  rw [h] at h'
  exact Option.some.inj h'

/-- C124. There are five messages. -/
theorem C124_messages {s m : Str} (h : TimeFault s m) : m ∈ [str! "input is out of range",
    str! "input is not enough for unique date and time", str! "input contains invalid characters",
    str! "premature end of input", str! "trailing input"] := by
  rw [← C124_exact] at h
  cases hp : parseError s with
  | none => rw [hp] at h; cases h
  | some e =>
    rw [hp] at h
    cases h
    cases e <;> decide

/-- C124. A text with something wrong is not read. -/
theorem C124_unread {s m : Str} (h : TimeFault s m) : Chrono.parseTime s = none := by
  cases hp : Chrono.parseTime s with
  | none => rfl
  | some t =>
    exfalso
    refine (C124_none s).2 ?_ m h
    rcases (C108_model s t).1 hp with ⟨m, hm, -⟩ | ⟨hh, mi, ns, hd, -⟩
    · exact .inl ⟨m, (C108_read s m).1 hm⟩
    · exact .inr ⟨hh, mi, ns, hd⟩

/-- C124. A body whose `iat`, `nbf` or `exp` has something wrong is reported with the message, and the place behind the
string. -/
theorem C124_body (x : Ext) (T : Texts) (b : Bytes) (kvs : List (Str × Json)) (t k n s w w' v u y rest m : Str)
    (hb : Octets b (t ++ (s ++ (w ++ ':' :: (w' ++ (y ++ rest)))))) (ht : BodyStart (withChrono x) kvs t)
    (hk : k ∈ [str! "iat", str! "nbf", str! "exp"]) (hin : k ∉ kvs.map Prod.fst) (hn : StringText k n)
    (hs : Utf8Text n s) (hw : Ws w) (hw' : Ws w') (hv : StringText v u) (hy : Utf8Text u y) (hm : TimeFault v m) :
    ∃ text, bodyReport (withChrono x) (withTimes T) b = some text ∧
      Report b m (t.length + s.length + w.length + 1 + w'.length + y.length) text := by
  have h := C122_time (withChrono x) (withTimes T) b kvs t k n s w w' v u y rest hb ht hk hin hn hs hw hw' hv hy
    (C124_unread hm)
  have e : (withTimes T).time v = m := by
    show ((parseError v).map ParseError.text).getD [] = m
    rw [(C124_exact v m).2 hm]
    rfl
  rwa [e] at h

/-! ### Particular texts -/

/-- C124. A date without a time. -/
theorem C124_date_only {s : Str} {x : Date} (h : DateText s x) (h1 : -2 ^ 31 ≤ x.year) (h2 : x.year < 2 ^ 31) :
    TimeFault s (str! "input is not enough for unique date and time") := by
  refine .dateOnly s ?_
  have := date_begins (r := []) h h1 h2 (by intro c hc; cases hc)
  rwa [List.append_nil] at this

/-- C124. Something after the time. -/
theorem C124_trailing {date clock rest : Str} {x : Date} {c d : Char} {h mi sec ns : Nat} {off : Int} (hd : DateText date x)
    (h1 : -2 ^ 31 ≤ x.year) (h2 : x.year < 2 ^ 31) (hc : c ∈ ['T', ' ']) (hk : ClockText clock h mi sec ns off)
    (hr : ¬ WhiteSpace d) : TimeFault (date ++ c :: (clock ++ d :: rest)) (str! "trailing input") := by
  have hc' : c = 'T' ∨ c = ' ' := by simpa using hc
  refine .trailing _ c (clock ++ d :: rest) (d :: rest)
    (date_begins hd h1 h2 (noDigit_cons (by rcases hc' with rfl | rfl <;> decide))) hc (clock_begins_rest hk ?_) (by simp)
  intro e he
  cases he
  exact hr

/-- C124. A date and time of the right form which denote no moment. -/
theorem C124_range {date clock : Str} {x : Date} {c : Char} {h mi sec ns : Nat} {off : Int} (hd : DateText date x)
    (h1 : -2 ^ 31 ≤ x.year) (h2 : x.year < 2 ^ 31) (hc : c ∈ ['T', ' ']) (hk : ClockText clock h mi sec ns off)
    (hn : ∀ m, ¬ MomentText (date ++ c :: clock) m) (hb : ¬ BeforeTheBeginning (date ++ c :: clock)) :
    TimeFault (date ++ c :: clock) (str! "input is out of range") := by
  have hc' : c = 'T' ∨ c = ' ' := by simpa using hc
  exact .range _ c clock (date_begins hd h1 h2 (noDigit_cons (by rcases hc' with rfl | rfl <;> decide))) hc
    (clock_begins hk) hn hb

/-- C124. A number as a string, as one might write the NumericDate of RFC 7519. -/
theorem C124_number {ds : Str} (h : IsDigits ds) : TimeFault ds
    (if ds.length ≤ 4 then str! "premature end of input" else str! "input contains invalid characters") := by
  have hne := h.1
  have hdig := ((isDigits_iff ds).1 h).2
  have blank : ∀ {r : Str}, (∀ c ∈ r, Json.isDigit c = true) → Begins [.blank] r r := fun {r} hr => by
    have := begins_cons (ps := []) (.blank [] (by intro c hc; cases hc)) (ended_blank (r := r) (fun c hc =>
      isDigit_notWs (hr c (List.mem_of_mem_head? hc)))) (.nil r)
    exact this
  have hyear : ∀ a r : Str, ds = a ++ r → IsDigits a → a.length ≤ 4 → (r ≠ [] → a.length = 4) →
      Begins [.blank, .year, .blank] ds r := by
    intro a r e ha hl hr
    have hb := digits_bound ha hl (by decide)
    have h1 := begins_cons (.blank [] (by intro c hc; cases hc)) (ended_blank (r := a ++ r) (digits_head _ _ ha))
      (begins_cons (.year a _ (.plain a ha hl) (by omega) (by omega)) (t := r)
        (fun ⟨c, hc, _⟩ => ⟨ha, hr (by rintro rfl; cases hc)⟩)
        (blank (r := r) (fun c hc => hdig c (by rw [e]; simp [hc]))))
    rw [e]
    exact h1
  split
  · rename_i hl
    exact .date [.blank, .year, .blank] _ (.mark '-') ds [] _ rfl (hyear ds [] (by simp) h hl (by simp)) (.markEnd '-')
  · rename_i hl
    have hd : ds.drop 4 ≠ [] := by
      intro h
      have := congrArg List.length h
      simp only [List.length_drop, List.length_nil] at this
      omega
    obtain ⟨c, r, hr⟩ : ∃ c r, ds.drop 4 = c :: r := by
      cases hh : ds.drop 4 with
      | nil => exact absurd hh hd
      | cons c r => exact ⟨c, r, rfl⟩
    refine .date [.blank, .year, .blank] _ (.mark '-') ds (c :: r) _ rfl
      (hyear (ds.take 4) (c :: r) (by rw [← hr, List.take_append_drop])
        ((isDigits_iff _).2 ⟨fun h => ?_, fun c hc => hdig c (List.mem_of_mem_take hc)⟩) (by simp)
        (fun _ => by rw [List.length_take]; omega)) (.markOther '-' c r ?_)
    · have := congrArg List.length h
      simp only [List.length_take, List.length_nil] at this
      omega
    · rintro rfl
      have := hdig '-' (List.mem_of_mem_drop (by rw [hr]; simp))
      exact absurd this (by decide)

/-- C124. A time without an offset. -/
theorem C124_no_offset {date h mi sec frac : Str} {x : Date} {c : Char} {a b d ns : Nat} (hd : DateText date x)
    (h1 : -2 ^ 31 ≤ x.year) (h2 : x.year < 2 ^ 31) (hc : c ∈ ['T', ' ']) (hh : Digits 2 h a) (hm : Digits 2 mi b)
    (hs : Digits 2 sec d) (hf : Rfc3339Fraction frac ns) :
    TimeFault (date ++ c :: (h ++ ':' :: (mi ++ ':' :: (sec ++ frac)))) (str! "premature end of input") := by
  have hc' : c = 'T' ∨ c = ' ' := by simpa using hc
  have nothing : PartText .blank [] := .blank [] (by intro c hc; cases hc)
  have colon : ∀ t : Str, NoDigit (':' :: t) := fun t => noDigit_cons (by decide)
  have colon' : ∀ t : Str, Ended .blank [] (':' :: t) := fun t => ended_blank (by intro c hc; cases hc; decide)
  have hfd : NoDigit frac := by
    cases hf with
    | none => intro c hc; cases hc
    | some ds => exact noDigit_cons (by decide)
  have hrest : Begins [.number, .fraction, .blank] (sec ++ frac) [] := by
    refine begins_cons (.number sec _ hs) (ended_digits hfd).1 ?_
    have := begins_cons (ps := [.blank]) (r := []) (.fraction frac _ hf) (t := []) ⟨by simp, by simp⟩
      (begins_cons (s := []) nothing (ended_blank (by simp)) (.nil []))
    rwa [List.append_nil] at this
  refine .clock [.blank, .number, .blank, .mark ':', .blank, .number, .blank, .mark ':', .blank, .number, .fraction, .blank]
    _ .zone _ c _ [] _ (date_begins hd h1 h2 (noDigit_cons (by rcases hc' with rfl | rfl <;> decide))) hc rfl ?_ .zoneEnd
  exact begins_cons (s := []) nothing (ended_blank (digits_head _ _ hh.1)) (begins_cons (.number h _ hh)
    (ended_digits (colon _)).1 (begins_cons (s := []) nothing (colon' _) (begins_cons (s := [':']) (.mark ':') trivial
    (begins_cons (s := []) nothing (ended_blank (digits_head _ _ hm.1)) (begins_cons (.number mi _ hm)
    (ended_digits (colon _)).1 (begins_cons (s := []) nothing (colon' _) (begins_cons (s := [':']) (.mark ':') trivial
    (begins_cons (s := []) nothing (ended_blank (digits_head _ _ hs.1)) hrest))))))))

/-! ### Cases -/

namespace Ex

/-- C124. Each message, and texts with nothing wrong. -/
example : TimeFault (str! "2023-02-30T12:00:00Z") (str! "input is out of range") ∧
    TimeFault (str! "2023-06-01") (str! "input is not enough for unique date and time") ∧
    TimeFault (str! "1685620800") (str! "input contains invalid characters") ∧
    TimeFault (str! "2023-06-01T12:00:00") (str! "premature end of input") ∧
    TimeFault (str! "2023-06-01T12:00:00Z.") (str! "trailing input") ∧
    (∀ m, ¬ TimeFault (str! "2023-06-01T12:00:00Z") m) := by
  refine ⟨(C124_exact _ _).1 (by decide +kernel), (C124_exact _ _).1 (by decide +kernel),
    (C124_exact _ _).1 (by decide +kernel), (C124_exact _ _).1 (by decide +kernel),
    (C124_exact _ _).1 (by decide +kernel), fun m h => ?_⟩
  have h := (C124_exact _ _).2 h
  have e : parseError (str! "2023-06-01T12:00:00Z") = none := by decide +kernel
  rw [e] at h
  cases h

theorem no_blank : Blank [] := fun c hc => by cases hc

theorem day_text : DateText (str! "2023-06-01") ⟨2023, 6, 1⟩ :=
  ⟨[], [], [], [], [], str! "2023", str! "06", str! "01", no_blank, no_blank, no_blank, no_blank, no_blank,
    .plain (str! "2023") (by unfold IsDigits; decide) (by decide), ⟨by unfold IsDigits; decide, by decide, by decide⟩,
    ⟨by unfold IsDigits; decide, by decide, by decide⟩, rfl⟩

/-- C124. The hypotheses of the particular texts are met. -/
example : TimeFault (str! "2023-06-01") (str! "input is not enough for unique date and time") ∧
    TimeFault (str! "2023-06-01 12:30:00.5") (str! "premature end of input") ∧
    TimeFault (str! "2023") (str! "premature end of input") ∧
    TimeFault (str! "1685620800") (str! "input contains invalid characters") :=
  ⟨C124_date_only day_text (by decide) (by decide),
    C124_no_offset (c := ' ') (h := str! "12") (mi := str! "30") (sec := str! "00") (frac := str! ".5") (a := 12) (b := 30)
      (d := 0) day_text (by decide) (by decide) (by decide) ⟨by unfold IsDigits; decide, by decide, by decide⟩
      ⟨by unfold IsDigits; decide, by decide, by decide⟩ ⟨by unfold IsDigits; decide, by decide, by decide⟩
      (.some (str! "5") (by unfold IsDigits; decide)),
    C124_number (ds := str! "2023") (by unfold IsDigits; decide),
    C124_number (ds := str! "1685620800") (by unfold IsDigits; decide)⟩

theorem clock_text : ClockText (str! "25:00:00Z") 25 0 0 0 0 :=
  ⟨[], [], [], [], [], [], [], str! "25", str! "00", str! "00", [], ['Z'], no_blank, no_blank, no_blank, no_blank,
    no_blank, no_blank, no_blank, ⟨by unfold IsDigits; decide, by decide, by decide⟩,
    ⟨by unfold IsDigits; decide, by decide, by decide⟩, ⟨by unfold IsDigits; decide, by decide, by decide⟩, .none,
    .zulu 'Z' (by decide), rfl⟩

/-- C124. Hour 25, and something after it. -/
example : TimeFault (str! "2023-06-01T25:00:00Z") (str! "input is out of range") ∧
    TimeFault (str! "2023-06-01T25:00:00Z[UTC]") (str! "trailing input") := by
  have e : readDateTime (str! "2023-06-01T25:00:00Z") = .err () := by decide +kernel
  refine ⟨C124_range (c := 'T') day_text (by decide) (by decide) (by decide) clock_text (fun m h => ?_) (fun h => ?_),
    C124_trailing (c := 'T') (d := '[') (rest := str! "UTC]") day_text (by decide) (by decide) (by decide) clock_text
      (by unfold WhiteSpace; decide)⟩
  · have := (C108_read _ m).2 h
    rw [show str! "2023-06-01" ++ 'T' :: str! "25:00:00Z" = str! "2023-06-01T25:00:00Z" from rfl, e] at this
    cases this
  · have := (C108_panics_iff _).2 h
    rw [show str! "2023-06-01" ++ 'T' :: str! "25:00:00Z" = str! "2023-06-01T25:00:00Z" from rfl, e] at this
    cases this

/-- C124. A body whose `exp` is the NumericDate as a string. -/
example : ∃ text, bodyReport (withChrono Ex.ext) (withTimes texts) (utf8Encode (str! "{\"exp\":\"1685620800\"}")) = some text ∧
    Report (utf8Encode (str! "{\"exp\":\"1685620800\"}")) (str! "input contains invalid characters") 19 text :=
  C124_body Ex.ext texts _ [] (str! "{") (str! "exp") (str! "\"exp\"") (str! "\"exp\"") [] [] (str! "1685620800")
    (str! "\"1685620800\"") (str! "\"1685620800\"") ['}'] _ (Json.octets_iff.2 (by decide)) (.brace [] [] Ws.nil Ws.nil)
    (by decide) (by decide) ⟨_, plain (str! "exp") (by decide), rfl⟩ (Json.utf8Text_iff.2 (by decide)) Ws.nil Ws.nil
    ⟨_, plain (str! "1685620800") (by decide), rfl⟩ (Json.utf8Text_iff.2 (by decide))
    (C124_number (ds := str! "1685620800") (by unfold IsDigits; decide))

end Ex

end Oid4vci
