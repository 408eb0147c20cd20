import Verif.Lemmas.Instant
import Verif.Props.Claims

/-!
C74: date-time texts denote instants.
-/

namespace Oid4vci

open Spec

/-- C74. A text is read as an instant exactly when it is written in the library's format for that
instant. -/
theorem C74_exact (s : Str) (t : Time) : Chrono.parseTime s = some t ↔ InstantText s t :=
  Chrono.parseTime_iff s t

/-- The digits of RFC 3339 fields are those of the wider format. -/
theorem digits_of_length {ds : Str} {k : Nat} (h : IsDigits ds) (hl : ds.length = k) :
    Digits k ds (decimal ds) := ⟨h, by omega, rfl⟩

theorem blank_nil : Blank [] := fun _ h => by cases h

/-- C74. Date-times of RFC 3339 are read as the instants they denote, whatever the fraction and the
offset. -/
theorem C74_rfc3339 (s : Str) (t : Time) (h : Rfc3339 s t) : Chrono.parseTime s = some t := by
  obtain ⟨y, mo, d, hh, mi, sec, frac, zone, ns, off, day, rfl, d1, d2, d3, d4, d5, d6, l1, l2, l3, l4, l5, l6,
    b1, b2, b3, hf, hz, hday, rfl⟩ := h
  obtain ⟨hdate, hn⟩ := (Chrono.dayNumber_iff _ _).1 hday
  have hy : decimal y < 10000 := by
    have := Chrono.decimal_lt y ((Chrono.isDigits_iff y).1 d1).2
    rwa [l1] at this
  have hns : ns < 1000000000 := by
    cases hf with
    | none => decide
    | some ds hd =>
      have := Chrono.decimal_lt (ds.take 9) fun c hc => ((Chrono.isDigits_iff ds).1 hd).2 c (List.mem_of_mem_take hc)
      have hl : (ds.take 9).length ≤ 9 := by simp
      have hm := Nat.mul_lt_mul_of_lt_of_le this (Nat.le_refl (10 ^ (9 - (ds.take 9).length))) (Nat.pow_pos (by decide))
      rw [← Nat.pow_add, show (ds.take 9).length + (9 - (ds.take 9).length) = 9 by omega] at hm
      exact hm
  have hoff : -86400 < off ∧ off < 86400 ∧ Zone zone off := by
    cases hz with
    | utc => exact ⟨by decide, by decide, .zulu 'Z' (by simp)⟩
    | east a b ha hb la lb ba bb =>
      exact ⟨by omega, by omega, .east a [':'] b ha hb la lb bb (by simp)⟩
    | west a b ha hb la lb ba bb =>
      exact ⟨by omega, by omega, .west a [':'] b ha hb la lb bb (by simp)⟩
  have hb := Chrono.numDays_bounds _ hdate
  have hlo := Chrono.yearStart_mono 0 (decimal y) (by omega)
  have hhi := Chrono.yearStart_mono (decimal y + 1) 10000 (by omega)
  rw [show Chrono.yearStart 0 = -366 by decide] at hlo
  rw [show Chrono.yearStart 10000 = 3652059 by decide] at hhi
  simp only [Chrono.epochDay] at hn hb
  have hval : Time.Valid (instantOf day (decimal hh) (decimal mi) (decimal sec) ns off) := by
    have hday1 : -719528 ≤ day := by omega
    have hday2 : day ≤ 2932896 := by omega
    constructor
    · show (-8334632851200000000000 : Int) ≤ (day * 86400 + ((decimal hh * 3600 + decimal mi * 60 + decimal sec : Nat) : Int) - off) * 1000000000 + (ns : Int)
      omega
    · show (day * 86400 + ((decimal hh * 3600 + decimal mi * 60 + decimal sec : Nat) : Int) - off) * 1000000000 + (ns : Int) ≤ (8210298412799999999999 : Int)
      omega
  refine (C74_exact _ _).2 ⟨y ++ '-' :: (mo ++ '-' :: d),
    hh ++ ':' :: (mi ++ ':' :: (sec ++ (frac ++ zone))), 'T', ⟨decimal y, decimal mo, decimal d⟩, decimal hh,
    decimal mi, decimal sec, ns, off, day, ?_, ?_, by simp, ?_, b1, b2, b3, hoff.1, hoff.2.1, hdate, ?_, ?_, hday,
    rfl, hval⟩
  · simp
  · exact ⟨[], [], [], [], [], y, mo, d, blank_nil, blank_nil, blank_nil, blank_nil, blank_nil,
      .plain y d1 (by omega), digits_of_length d2 l2, digits_of_length d3 l3, by simp⟩
  · exact ⟨[], [], [], [], [], [], [], hh, mi, sec, frac, zone, blank_nil, blank_nil, blank_nil, blank_nil,
      blank_nil, blank_nil, blank_nil, digits_of_length d4 l4, digits_of_length d5 l5, digits_of_length d6 l6, hf,
      hoff.2.2, by simp⟩
  · show (-262144 : Int) ≤ (decimal y : Int)
    omega
  · show ((decimal y : Nat) : Int) ≤ 262143
    omega

/-- C74. RFC 3339 also permits the lower-case separator; such texts are refused. -/
theorem C74_lower_case (y mo d rest : Str) (h1 : IsDigits y) (h2 : IsDigits mo) (h3 : IsDigits d)
    (l1 : y.length = 4) (l2 : mo.length = 2) (l3 : d.length = 2) :
    Chrono.parseTime (y ++ '-' :: (mo ++ '-' :: (d ++ 't' :: rest))) = none := by
  have hy : decimal y < 10000 := by
    have := Chrono.decimal_lt y ((Chrono.isDigits_iff y).1 h1).2
    rwa [l1] at this
  have hd : DateText (y ++ '-' :: (mo ++ '-' :: d)) ⟨decimal y, decimal mo, decimal d⟩ :=
    ⟨[], [], [], [], [], y, mo, d, blank_nil, blank_nil, blank_nil, blank_nil, blank_nil,
      .plain y h1 (by omega), digits_of_length h2 l2, digits_of_length h3 l3, by simp⟩
  have := Chrono.parseDate_of (r := 't' :: rest) hd (by show (decimal y : Int).natAbs < 2 ^ 63; omega)
    (Chrono.noDigit_cons (by decide))
  simp only [List.append_assoc, List.cons_append] at this
  rw [Chrono.parseTime, this]
  rfl

/-- C74. So the claims of a body are the instants which their texts denote. -/
theorem C74_claims (x : Ext) (kvs : List (Str × Json)) (b : ProofJwtBody)
    (h : ProofJwtBody.de (withChrono x) (.obj kvs) = some b) (s : Str) (t : Time) (ht : Rfc3339 s t) :
    (Sole kvs (str! "iat") (.str s) → b.issuedAt = t) ∧
    (Sole kvs (str! "nbf") (.str s) → b.notBefore = some t) ∧
    (Sole kvs (str! "exp") (.str s) → b.expiresAt = some t) := by
  have hp := C74_rfc3339 s t ht
  have inst : ∀ {v : Json} {t' : Time}, v = .str s → IsInstant (withChrono x) v t' → t' = t := by
    rintro v t' rfl ⟨s', hs, hp'⟩
    cases hs
    have : Chrono.parseTime s = some t' := hp'
    rw [hp] at this
    exact (Option.some.inj this).symm
  have opt : ∀ {k : Str} {o : Option Time}, Sole kvs k (.str s) →
      OptionalClaim (IsInstant (withChrono x)) kvs k o → o = some t := by
    intro k o hs ho
    cases o with
    | none =>
      rcases ho with ho | ho
      · exact absurd hs.1 (ho _)
      · exact absurd (sole_mem ho hs.1) (by simp)
    | some t' =>
      obtain ⟨w, h1, h2⟩ := ho
      rw [inst (sole_mem h1 hs.1).symm h2]
  obtain ⟨-, -, -, ⟨w, c4, c4'⟩, -, c6, c7⟩ := (C59_claims_exact _ kvs b).1 h
  exact ⟨fun hs => inst (sole_mem c4 hs.1).symm c4', fun hs => opt hs c6, fun hs => opt hs c7⟩

/-- C74. The text in which an instant is displayed denotes it too, so that different instants are
displayed differently. -/
theorem C74_displayed (t : Time) (h : Time.Valid t) :
    InstantText (Chrono.dispTime t) t ∧
    ∀ t', Time.Valid t' → Chrono.dispTime t' = Chrono.dispTime t → t' = t := by
  refine ⟨(C74_exact _ _).1 (Chrono.parse_disp t h), fun t' h' e => ?_⟩
  have h1 := Chrono.parse_disp t' h'
  rw [e, Chrono.parse_disp t h] at h1
  exact (Option.some.inj h1).symm

example : Chrono.dispTime 1536959950500000000 = str! "2018-09-14 21:19:10.500 UTC" := by decide +kernel
example : Chrono.dispTime (-62198755200000000000) = str! "-0001-01-01 00:00:00 UTC" := by decide +kernel

/-- Half a second past 23:19:10 in a zone two hours ahead of UTC. -/
theorem Ex.rfc3339 : Rfc3339 (str! "2018-09-14T23:19:10.5+02:00") 1536959950500000000 := by
  refine ⟨str! "2018", str! "09", str! "14", str! "23", str! "19", str! "10", str! ".5", str! "+02:00",
    500000000, 7200, 17788, by decide, ?_, ?_, ?_, ?_, ?_, ?_, rfl, rfl, rfl, rfl, rfl, rfl, by decide, by decide,
    by decide, Rfc3339Fraction.some (str! "5") ?_, Rfc3339Offset.east (str! "02") (str! "00") ?_ ?_ rfl rfl
    (by decide) (by decide), (Chrono.dayNumber_iff _ _).2 ⟨?_, by decide⟩, by decide⟩
  all_goals first | (unfold IsDigits; decide) | (unfold IsDate; decide)

example : Chrono.parseTime (str! "2018-09-14T23:19:10.5+02:00") = some 1536959950500000000 := by decide
example : Chrono.parseTime (str! "2018-09-15t02:49:10+05:30") = none := by decide
example : Chrono.parseTime (str! "2018-09-15T02:49:10+05:30") = some 1536959950000000000 := by decide
example : Chrono.parseTime (str! " +2018 - 9 -14  23: 19 :10 utc ") = some 1536967150000000000 := by decide
example : Chrono.parseTime (str! "2000-02-29T23:59:60Z") = some 951868800000000000 := by decide
example : Chrono.parseTime (str! "1969-12-31T23:59:59.9999999999Z") = some (-1) := by decide

/-- The hypotheses of C74 at this text. -/
example : Chrono.parseTime (str! "2018-09-14T23:19:10.5+02:00") = some 1536959950500000000 :=
  C74_rfc3339 _ _ Ex.rfc3339
example : Chrono.parseTime (str! "2018-09-14t23:19:10Z") = none :=
  C74_lower_case (str! "2018") (str! "09") (str! "14") (str! "23:19:10Z") (by unfold IsDigits; decide)
    (by unfold IsDigits; decide) (by unfold IsDigits; decide) rfl rfl rfl
example : ∃ b, ProofJwtBody.de (withChrono Ex.ext) (.obj [(str! "exp", .str (str! "2018-09-14T23:19:10.5+02:00")),
      (str! "nonce", .str (str! "n")), (str! "iat", .str (str! "1970-01-01T00:00:12Z")), (str! "aud", .str (str! "a"))])
      = some b ∧ b.expiresAt = some 1536959950500000000 :=
  ⟨⟨none, str! "a", none, 12000000000, str! "n", none, some 1536959950500000000⟩, by decide +kernel,
    (C74_claims Ex.ext [(str! "exp", .str (str! "2018-09-14T23:19:10.5+02:00")),
      (str! "nonce", .str (str! "n")), (str! "iat", .str (str! "1970-01-01T00:00:12Z")), (str! "aud", .str (str! "a"))]
      _ (by decide +kernel) _ _ Ex.rfc3339).2.2 ⟨by simp, by decide⟩⟩

end Oid4vci
