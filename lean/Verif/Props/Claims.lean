import Verif.Spec.Claims
import Verif.Lemmas.ChronoText
import Verif.Props.Jwt

/-!
The claims of a JWT body: C56 date-time text, C57 NumericDate, C58 JOSE document shapes, C59 exact
reading of claims.
-/

namespace Oid4vci

open Spec Serde

/-! ### C56: date-time text -/

/-- The externals with chrono's text format for instants. -/
def withChrono (x : Ext) : Ext :=
  { x with parseTime := Chrono.parseTime, showTime := Chrono.showTime, dispTime := Chrono.dispTime }

/-- C56. Every representable instant is read back from its text. -/
theorem C56_round_trip (t : Time) (h : Time.Valid t) :
    Chrono.parseTime (Chrono.showTime t) = some t := Chrono.parse_show t h

/-- Before the epoch, with nanoseconds. -/
example : Chrono.parseTime (Chrono.showTime (-1)) = some (-1) := C56_round_trip (-1) (by decide)

/-- C56. Distinct instants have distinct texts. -/
theorem C56_injective (s t : Time) (hs : Time.Valid s) (ht : Time.Valid t)
    (h : Chrono.showTime s = Chrono.showTime t) : s = t := by
  have h1 := C56_round_trip s hs
  rw [h, C56_round_trip t ht] at h1
  exact (Option.some.inj h1).symm

/-- Two instants a nanosecond apart. -/
example : Chrono.showTime 1536959950000000000 ≠ Chrono.showTime 1536959950000000001 := fun h =>
  absurd (C56_injective _ _ (by decide) (by decide) h) (by decide)

/-- C56. The dates are those of the Gregorian calendar. -/
theorem C56_calendar : NumbersDays fun n => Chrono.fromDaysFromCe (n + Chrono.epochDay) where
  epoch := by decide
  next n := by
    rw [show n + 1 + Chrono.epochDay = n + Chrono.epochDay + 1 by omega]
    exact Chrono.fromDays_next _
  isDate n := Chrono.fromDays_isDate _

/-- C56. Hence the claims of every body with representable instants survive, and a compact JWT of such
a body is read as exactly that body, without an assumption about the date-time format. -/
theorem C56_parses (x : Ext) (h : ProofJwtHeader) (b : ProofJwtBody) (sig : Option Str)
    (h1 : Time.Valid b.issuedAt) (h2 : ∀ t ∈ b.notBefore, Time.Valid t)
    (h3 : ∀ t ∈ b.expiresAt, Time.Valid t) (hsig : ∀ s ∈ sig, NoDot s) (hs bs : Str)
    (hh : IsDocSegment h.ser.print hs) (hb : IsDocSegment (b.ser (withChrono x)).print bs) :
    ProofJwt.fromStr (withChrono x) (dotted (hs :: bs :: sig.toList)) = .ok ⟨h, b, sig⟩ :=
  C17_parses (withChrono x) h b sig ⟨C56_round_trip _ h1, fun t ht => C56_round_trip t (h2 t ht),
    fun t ht => C56_round_trip t (h3 t ht)⟩ hsig hs bs hh hb

/-- The instant of the repository's test for request evaluation. -/
example : Time.Valid 1536959950000000000 ∧
    Chrono.showTime 1536959950000000000 = str! "2018-09-14T21:19:10Z" := by decide
example : Chrono.showTime (-1) = str! "1969-12-31T23:59:59.999999999Z" := by decide
example : Chrono.showTime Time.min = str! "-262144-01-01T00:00:00Z" := by decide
example : Chrono.showTime Time.max = str! "+262143-12-31T23:59:59.999999999Z" := by decide
example : Chrono.parseTime (str! "2018-09-14T23:19:10+02:00") = some 1536959950000000000 := by decide
example : Chrono.parseTime (str! "2018-02-29T00:00:00Z") = none := by decide

/-! ### C59: exact reading of claims -/

theorem occurrences_nil {k : Str} {kvs : List (Str × Json)} :
    occurrences k kvs = [] ↔ Absent kvs k := by
  simp only [occurrences, List.map_eq_nil_iff, List.filter_eq_nil_iff, decide_eq_true_eq, Absent]
  constructor
  · intro h v hv; exact h _ hv rfl
  · rintro h ⟨k', v⟩ hp rfl; exact h v hp

theorem length_occurrences (k : Str) (kvs : List (Str × Json)) :
    (occurrences k kvs).length = memberCount [k] kvs := by
  unfold occurrences memberCount
  rw [List.length_map, List.countP_eq_length_filter]
  simp

theorem mem_occurrences {k : Str} {v : Json} {kvs : List (Str × Json)} :
    v ∈ occurrences k kvs ↔ (k, v) ∈ kvs := by
  simp only [occurrences, List.mem_map, List.mem_filter, decide_eq_true_eq, Prod.exists,
    exists_eq_right]

theorem occurrences_single {k : Str} {v : Json} {kvs : List (Str × Json)} :
    occurrences k kvs = [v] ↔ Sole kvs k v := by
  constructor
  · intro h
    exact ⟨mem_occurrences.1 (by rw [h]; simp), by rw [← length_occurrences, h]; rfl⟩
  · rintro ⟨h1, h2⟩
    rw [← length_occurrences] at h2
    obtain ⟨w, hw⟩ := List.length_eq_one_iff.1 h2
    have := mem_occurrences.2 h1
    rw [hw] at this
    simp at this
    rw [hw, this]

theorem field_none {k : Str} {kvs : List (Str × Json)} :
    field k kvs = some none ↔ Absent kvs k := by
  rw [← occurrences_nil]
  unfold field
  split <;> simp_all

theorem field_some {k : Str} {v : Json} {kvs : List (Str × Json)} :
    field k kvs = some (some v) ↔ Sole kvs k v := by
  rw [← occurrences_single]
  unfold field
  split <;> simp_all

theorem fields_cons {k : Str} {ks : List Str} {kvs : List (Str × Json)} {o : Option Json}
    {os : List (Option Json)} :
    fields (k :: ks) kvs = some (o :: os) ↔ field k kvs = some o ∧ fields ks kvs = some os := by
  rw [fields]
  split <;> simp_all

theorem fields_nil {kvs : List (Str × Json)} : fields [] kvs = some [] := rfl

theorem string_eq {v : Json} {s : Str} : Serde.string v = some s ↔ IsText v s := by
  cases v <;> simp [Serde.string, IsText]

theorem deTime_eq {x : Ext} {v : Json} {t : Time} : deTime x v = some t ↔ IsInstant x v t := by
  cases v <;> simp [deTime, IsInstant]

/-- A required claim. -/
theorem req_field {α : Type} {d : De α} {is : Json → α → Prop} (hd : ∀ v a, d v = some a ↔ is v a)
    {k : Str} {kvs : List (Str × Json)} {a : α} :
    (∃ o, field k kvs = some o ∧ req d o = some a) ↔ ∃ v, Sole kvs k v ∧ is v a := by
  constructor
  · rintro ⟨o, h1, h2⟩
    cases o with
    | none => simp [req] at h2
    | some v => exact ⟨v, field_some.1 h1, (hd _ _).1 h2⟩
  · rintro ⟨v, h1, h2⟩
    exact ⟨some v, field_some.2 h1, (hd _ _).2 h2⟩

/-- An optional claim. -/
theorem opt_field {α : Type} {d : De α} {is : Json → α → Prop} (hd : ∀ v a, d v = some a ↔ is v a)
    (hn : ∀ a, ¬ is .null a) {k : Str} {kvs : List (Str × Json)} {a : Option α} :
    (∃ o, field k kvs = some o ∧ opt d o = some a) ↔ OptionalClaim is kvs k a := by
  have hopt : ∀ v, v ≠ Json.null → option d v = (d v).map some := by
    intro v hv; cases v <;> simp_all [option]
  cases a with
  | none =>
    simp only [OptionalClaim]
    constructor
    · rintro ⟨o, h1, h2⟩
      cases o with
      | none => exact .inl (field_none.1 h1)
      | some v =>
        by_cases hv : v = .null
        · subst hv; exact .inr (field_some.1 h1)
        · simp only [opt, hopt v hv] at h2
          simp at h2
    · rintro (h | h)
      · exact ⟨none, field_none.2 h, rfl⟩
      · exact ⟨some .null, field_some.2 h, rfl⟩
  | some a =>
    simp only [OptionalClaim]
    constructor
    · rintro ⟨o, h1, h2⟩
      cases o with
      | none => simp [opt] at h2
      | some v =>
        by_cases hv : v = .null
        · subst hv; simp [opt, option] at h2
        · simp only [opt, hopt v hv] at h2
          exact ⟨v, field_some.1 h1, (hd _ _).1 (by simpa using h2)⟩
    · rintro ⟨v, h1, h2⟩
      refine ⟨some v, field_some.2 h1, ?_⟩
      rw [opt, hopt v (by rintro rfl; exact hn _ h2), (hd _ _).2 h2]; rfl

/-- C59. A JSON object is read as the body `b` exactly when its members, taken by name, are the claims
of `b`. -/
theorem C59_claims_exact (x : Ext) (kvs : List (Str × Json)) (b : ProofJwtBody) :
    ProofJwtBody.de x (.obj kvs) = some b ↔ ClaimsOf x kvs b := by
  have t : ∀ {k : Str} {s : Str}, TextClaim kvs k s ↔ ∃ v, Sole kvs k v ∧ IsText v s := by
    intro k s
    exact ⟨fun h => ⟨_, h, rfl⟩, by rintro ⟨v, h, rfl⟩; exact h⟩
  have hs : ∀ (v : Json) (s : Str), Serde.string v = some s ↔ IsText v s := fun _ _ => string_eq
  have hi : ∀ (v : Json) (s : Time), deTime x v = some s ↔ IsInstant x v s := fun _ _ => deTime_eq
  have ns : ∀ s : Str, ¬ IsText .null s := fun s h => by cases h
  have ni : ∀ t : Time, ¬ IsInstant x .null t := fun t h => by obtain ⟨_, h, -⟩ := h; cases h
  constructor
  · intro h
    unfold ProofJwtBody.de at h
    split at h
    · rename_i iss aud sub iat nonce nbf exp hst
      simp only [struct] at hst
      simp only [fields_cons, fields_nil] at hst
      obtain ⟨f1, f2, f3, f4, f5, f6, f7, -⟩ := hst
      simp only [Option.bind_eq_bind, Option.bind_eq_some_iff] at h
      obtain ⟨a1, e1, a2, e2, a3, e3, a4, e4, a5, e5, a6, e6, a7, e7, h⟩ := h
      cases h
      exact ⟨(opt_field hs ns).1 ⟨_, f1, e1⟩, t.2 ((req_field hs).1 ⟨_, f2, e2⟩),
        (opt_field hs ns).1 ⟨_, f3, e3⟩, (req_field hi).1 ⟨_, f4, e4⟩,
        t.2 ((req_field hs).1 ⟨_, f5, e5⟩), (opt_field hi ni).1 ⟨_, f6, e6⟩,
        (opt_field hi ni).1 ⟨_, f7, e7⟩⟩
    · cases h
  · rintro ⟨c1, c2, c3, c4, c5, c6, c7⟩
    obtain ⟨o1, f1, e1⟩ := (opt_field hs ns).2 c1
    obtain ⟨o2, f2, e2⟩ := (req_field hs).2 (t.1 c2)
    obtain ⟨o3, f3, e3⟩ := (opt_field hs ns).2 c3
    obtain ⟨o4, f4, e4⟩ := (req_field hi).2 c4
    obtain ⟨o5, f5, e5⟩ := (req_field hs).2 (t.1 c5)
    obtain ⟨o6, f6, e6⟩ := (opt_field hi ni).2 c6
    obtain ⟨o7, f7, e7⟩ := (opt_field hi ni).2 c7
    have hst : struct [str! "iss", str! "aud", str! "sub", str! "iat", str! "nonce", str! "nbf",
        str! "exp"] (.obj kvs) = some [o1, o2, o3, o4, o5, o6, o7] := by
      simp only [struct]
      simp only [fields_cons, fields_nil]
      exact ⟨f1, f2, f3, f4, f5, f6, f7, trivial⟩
    unfold ProofJwtBody.de
    rw [hst]
    simp only [Option.bind_eq_bind, e1, e2, e3, e4, e5, e6, e7, Option.bind_some]

/-- Permuting the members keeps what occurs once and what is absent. -/
theorem ClaimsOf.perm {x : Ext} {kvs kvs' : List (Str × Json)} {b : ProofJwtBody}
    (hs : ∀ k ∈ claimNames, ∀ v, Sole kvs k v → Sole kvs' k v)
    (ha : ∀ k ∈ claimNames, Absent kvs k → Absent kvs' k) (h : ClaimsOf x kvs b) :
    ClaimsOf x kvs' b := by
  have o : ∀ {α : Type} (is : Json → α → Prop) (k : Str), k ∈ claimNames → ∀ a : Option α,
      OptionalClaim is kvs k a → OptionalClaim is kvs' k a := by
    intro α is k hk a ho
    cases a with
    | none => exact ho.imp (ha k hk) (hs k hk _)
    | some a => obtain ⟨v, h1, h2⟩ := ho; exact ⟨v, hs k hk v h1, h2⟩
  obtain ⟨c1, c2, c3, ⟨v, c4, c4'⟩, c5, c6, c7⟩ := h
  exact ⟨o _ _ (by decide) _ c1, hs _ (by decide) _ c2, o _ _ (by decide) _ c3,
    ⟨v, hs _ (by decide) _ c4, c4'⟩, hs _ (by decide) _ c5, o _ _ (by decide) _ c6,
    o _ _ (by decide) _ c7⟩

/-- C59. The order of the members does not matter. -/
theorem C59_order_irrelevant (x : Ext) (kvs kvs' : List (Str × Json)) (h : kvs.Perm kvs') :
    ProofJwtBody.de x (.obj kvs) = ProofJwtBody.de x (.obj kvs') := by
  have key : ∀ {l l' : List (Str × Json)} {b : ProofJwtBody}, l.Perm l' → ClaimsOf x l b →
      ClaimsOf x l' b := by
    intro l l' b hp
    refine ClaimsOf.perm ?_ ?_
    · rintro k - v ⟨h1, h2⟩
      exact ⟨hp.mem_iff.1 h1, by rw [← h2]; exact (hp.countP_eq _).symm⟩
    · intro k _ ha v hv
      exact ha v (hp.mem_iff.2 hv)
  apply Option.ext
  intro b
  rw [C59_claims_exact, C59_claims_exact]
  exact ⟨key h, key h.symm⟩

/-- Two members exchanged. -/
example : ProofJwtBody.de Ex.ext (.obj [(str! "nonce", .str (str! "n")), (str! "aud", .str (str! "a"))])
    = ProofJwtBody.de Ex.ext (.obj [(str! "aud", .str (str! "a")), (str! "nonce", .str (str! "n"))]) :=
  C59_order_irrelevant _ _ _ (List.Perm.swap _ _ _)

/-- C59. Members with other names are ignored, wherever they stand. -/
theorem C59_unknown_ignored (x : Ext) (l₁ l₂ : List (Str × Json)) (k : Str) (v : Json)
    (hk : k ∉ claimNames) :
    ProofJwtBody.de x (.obj (l₁ ++ (k, v) :: l₂)) = ProofJwtBody.de x (.obj (l₁ ++ l₂)) := by
  have hne : ∀ {k' : Str}, k' ∈ claimNames → k ≠ k' := by rintro k' h rfl; exact hk h
  apply Option.ext
  intro b
  rw [C59_claims_exact, C59_claims_exact]
  have hm : ∀ {k' : Str} {w : Json}, k' ∈ claimNames →
      ((k', w) ∈ l₁ ++ (k, v) :: l₂ ↔ (k', w) ∈ l₁ ++ l₂) := by
    intro k' w hk'
    have : ¬ (k' = k ∧ w = v) := fun h => hne hk' h.1.symm
    simp only [List.mem_append, List.mem_cons, Prod.mk.injEq, this, false_or]
  have hc : ∀ {k' : Str}, k' ∈ claimNames →
      memberCount [k'] (l₁ ++ (k, v) :: l₂) = memberCount [k'] (l₁ ++ l₂) := by
    intro k' hk'
    simp [memberCount, List.countP_append, hne hk']
  constructor
  · refine ClaimsOf.perm ?_ ?_
    · rintro k' h v ⟨h1, h2⟩; exact ⟨(hm h).1 h1, by rw [← hc h, h2]⟩
    · intro k' h ha v hv; exact ha v ((hm h).2 hv)
  · refine ClaimsOf.perm ?_ ?_
    · rintro k' h v ⟨h1, h2⟩; exact ⟨(hm h).2 h1, by rw [hc h, h2]⟩
    · intro k' h ha v hv; exact ha v ((hm h).1 hv)

/-- An object with the members out of order and an unknown one, and what it is read as. -/
example : ClaimsOf (withChrono Ex.ext) [(str! "nonce", .str (str! "n")), (str! "jti", .num 7),
    (str! "iat", .str (str! "1970-01-01T00:00:12Z")), (str! "sub", .null), (str! "aud", .str (str! "a"))]
    ⟨none, str! "a", none, 12000000000, str! "n", none, none⟩ :=
  (C59_claims_exact _ _ _).1 (by rfl)

/-! ### C57: NumericDate -/

/-- The time claims. -/
def Spec.timeClaims : List Str := [str! "iat", str! "nbf", str! "exp"]

/-- C57, full statement: a compact JWT whose `iat` is a NumericDate, as RFC 7519 and the documentation
of `ProofJwtBody` require, is accepted and its `iat` is that instant. -/
def C57_statement : Prop := ∀ (x : Ext) (h : ProofJwtHeader) (hs bs : Str) (bb : Bytes)
  (kvs : List (Str × Json)) (aud nonce : Str) (v : Json) (t : Time),
  IsDocSegment h.ser.print hs → IsBase64url bb bs → LooseText claimNames (.obj kvs) bb →
  TextClaim kvs (str! "aud") aud → TextClaim kvs (str! "nonce") nonce →
  Sole kvs (str! "iat") v → IsNumericDate v t →
  (∀ k ∈ [str! "iss", str! "sub", str! "nbf", str! "exp"], Absent kvs k) →
  ProofJwt.fromStr x (dotted [hs, bs]) = .ok ⟨h, ⟨none, aud, none, t, nonce, none, none⟩, none⟩

theorem not_instant_number {x : Ext} {v : Json} {t : Time} (hv : IsNumber v) : ¬ IsInstant x v t := by
  rintro ⟨s, rfl, -⟩
  rcases hv with ⟨n, h⟩ | ⟨s, h⟩ <;> cases h

theorem sole_mem {kvs : List (Str × Json)} {k : Str} {v w : Json} (h : Sole kvs k v)
    (hw : (k, w) ∈ kvs) : w = v := by
  have := occurrences_single.2 h
  have hm := mem_occurrences.2 hw
  rw [this] at hm
  simpa using hm

/-- C57 is violated for every JWT: with a number as `iat`, `nbf` or `exp` it is rejected. -/
theorem C57_number_rejected (x : Ext) (hs bs : Str) (rest : List Str) (bb : Bytes)
    (kvs : List (Str × Json)) (k : Str) (v : Json) (hnd : ∀ p ∈ hs :: bs :: rest, NoDot p)
    (hb : IsBase64url bb bs) (hp : LooseText claimNames (.obj kvs) bb) (hk : k ∈ timeClaims)
    (hm : (k, v) ∈ kvs) (hv : IsNumber v) :
    ∃ e, ProofJwt.fromStr x (dotted (hs :: bs :: rest)) = .err e := by
  have hde : ProofJwtBody.de x (.obj kvs) = none := by
    rw [Option.eq_none_iff_forall_ne_some]
    intro b hb
    obtain ⟨-, -, -, ⟨w, c4, c4'⟩, -, c6, c7⟩ := (C59_claims_exact x kvs b).1 hb
    have ho : ∀ {k : Str} {o : Option Time}, (k, v) ∈ kvs →
        ¬ OptionalClaim (IsInstant x) kvs k o := by
      intro k o hm hc
      cases o with
      | none =>
        rcases hc with hc | hc
        · exact hc v hm
        · have := sole_mem hc hm
          subst this
          rcases hv with ⟨n, h⟩ | ⟨s, h⟩ <;> cases h
      | some t =>
        obtain ⟨w, h1, h2⟩ := hc
        have := sole_mem h1 hm
        subst this
        exact not_instant_number hv h2
    simp only [timeClaims, List.mem_cons, List.not_mem_nil, or_false] at hk
    rcases hk with rfl | rfl | rfl
    · have := sole_mem c4 hm
      subst this
      exact not_instant_number hv c4'
    · exact ho hm c6
    · exact ho hm c7
  unfold ProofJwt.fromStr
  rw [splitOn_dotted _ (by simp) hnd]
  have : ProofJwtBody.fromSlice x bb = none := by rw [ProofJwtBody.fromSlice_of_loose x hp, hde]
  simp only [(C44_base64url_rfc4648 _ _).1.2 hb, this]
  split
  · exact ⟨_, rfl⟩
  · split <;> exact ⟨_, rfl⟩

/-- C57 is violated on the writing side too: no written body has a number as `iat`, `nbf` or `exp`. -/
theorem C57_written_as_text (x : Ext) (b : ProofJwtBody) : ∃ kvs, b.ser x = .obj kvs ∧
    ∀ k ∈ timeClaims, ∀ v, (k, v) ∈ kvs → ¬ IsNumber v := by
  refine ⟨_, rfl, ?_⟩
  intro k hk v hm hv
  simp only [timeClaims, List.mem_cons, List.not_mem_nil, or_false] at hk
  obtain ⟨iss, aud, sub, iat, nonce, nbf, exp⟩ := b
  have : ∃ s, v = .str s := by
    rcases hk with rfl | rfl | rfl <;> cases iss <;> cases nbf <;> cases exp <;>
      simp [skipNone, serTime] at hm <;> exact ⟨_, hm⟩
  obtain ⟨s, rfl⟩ := this
  rcases hv with ⟨n, h⟩ | ⟨s, h⟩ <;> cases h

/-- A body with all time claims. -/
example : ∃ kvs, Ex.body.ser Ex.ext = .obj kvs ∧ (∃ v, (str! "exp", v) ∈ kvs) ∧
    ∀ v, (str! "exp", v) ∈ kvs → ¬ IsNumber v := by
  obtain ⟨kvs, h, hk⟩ := C57_written_as_text Ex.ext Ex.body
  refine ⟨kvs, h, ?_, hk _ (by decide)⟩
  injection h with h
  subst h
  exact ⟨serTime Ex.ext 2000, by simp [Ex.body, skipNone]⟩

/-- C57, what holds instead: time claims given as date-time strings are accepted.
Missing: numbers. -/
theorem C57_text_partial (x : Ext) (h : ProofJwtHeader) (hs bs : Str) (bb : Bytes)
    (kvs : List (Str × Json)) (b : ProofJwtBody) (hh : IsDocSegment h.ser.print hs)
    (hb : IsBase64url bb bs) (hp : LooseText claimNames (.obj kvs) bb) (hc : ClaimsOf x kvs b) :
    ProofJwt.fromStr x (dotted [hs, bs]) = .ok ⟨h, b, none⟩ := by
  refine (C17_exact x _ _).2 ⟨hs, bs, [], _, bb, h.ser, .obj kvs, rfl, ?_, hh, hb,
    parseSlice_print (header_fits h), hp, ProofJwtHeader.de_ser h, (C59_claims_exact x kvs b).2 hc, rfl⟩
  intro p hp
  simp only [List.mem_cons, List.not_mem_nil, or_false] at hp
  rcases hp with rfl | rfl
  · rw [← (C44_base64url_rfc4648 _ _).2.2 hh]; exact noDot_encode _
  · rw [← (C44_base64url_rfc4648 _ _).2.2 hb]; exact noDot_encode _

/-- The JWT of a body with all claims. -/
example : ProofJwt.fromStr Ex.ext (dotted [base64urlEncode (utf8Encode Ex.header.ser.print),
    base64urlEncode (utf8Encode (Ex.body.ser Ex.ext).print)]) = .ok ⟨Ex.header, Ex.body, none⟩ :=
  C57_text_partial Ex.ext Ex.header _ _ _ _ Ex.body (isBase64url_encode _) (isBase64url_encode _)
    (Json.looseSlice_iff.1 (Json.looseSlice_of_parse (parseSlice_print (body_fits Ex.ext Ex.body))))
    ((C59_claims_exact _ _ _).1 (ProofJwtBody.de_ser _ _ Ex.timesOk_body))

/-- A body as RFC 7519 has it. -/
def Ex.numericDates : List (Str × Json) :=
  [(str! "aud", .str (str! "https://issuer")), (str! "iat", .num 1536959950),
    (str! "nonce", .str (str! "n"))]

theorem Ex.numericDates_fits : Fits 127 (.obj Ex.numericDates) :=
  fits_obj (n := 126) (forall_cons (fits_str _ _) (forall_cons
    (by simp [Fits, PlainNumbers, depth]) (forall_cons (fits_str _ _) forall_nil)))

/-- C57 does not hold. -/
theorem C57_refuted : ¬ C57_statement := by
  intro hst
  have hb := isBase64url_encode (utf8Encode (Json.obj Ex.numericDates).print)
  have hp := Json.looseSlice_iff.1 (Json.looseSlice_of_parse (known := claimNames)
    (parseSlice_print Ex.numericDates_fits))
  have h1 := hst Ex.ext Ex.header _ _ _ Ex.numericDates (str! "https://issuer") (str! "n")
    (.num 1536959950) (1536959950 * 1000000000) (isBase64url_encode _) hb hp
    ⟨by simp [Ex.numericDates], by decide⟩ ⟨by simp [Ex.numericDates], by decide⟩
    ⟨by simp [Ex.numericDates], by decide⟩ ⟨1536959950, rfl, rfl⟩
    (by
      intro k hk v hv
      have : ∀ k ∈ [str! "iss", str! "sub", str! "nbf", str! "exp"],
        k ∉ Ex.numericDates.map Prod.fst := by decide
      exact this k hk (List.mem_map.2 ⟨_, hv, rfl⟩))
  obtain ⟨e, h2⟩ := C57_number_rejected Ex.ext
    (base64urlEncode (utf8Encode Ex.header.ser.print)) _ [] _ Ex.numericDates (str! "iat")
    (.num 1536959950) (by
      intro p hp
      simp only [List.mem_cons, List.not_mem_nil, or_false] at hp
      rcases hp with rfl | rfl <;> exact noDot_encode _) hb hp (by decide)
    (by simp [Ex.numericDates]) (.inl ⟨_, rfl⟩)
  rw [h1] at h2
  cases h2

/-! ### C58: the shapes of the documents -/

/-- C58, full statement: in an accepted proof JWT header and body are JSON objects (RFC 7515 section 4,
RFC 7519 section 3) and `alg` is a string. -/
def C58_statement : Prop := ∀ (x : Ext) (hs bs : Str) (rest : List Str) (hb bb : Bytes)
  (hj bj : Json) (j : ProofJwt), (∀ p ∈ hs :: bs :: rest, NoDot p) →
  IsBase64url hb hs → IsBase64url bb bs → Json.parseSlice hb = some hj →
  LooseText claimNames bj bb → ProofJwt.fromStr x (dotted (hs :: bs :: rest)) = .ok j →
  (∃ kvs, hj = .obj kvs ∧ ∃ s, Sole kvs (str! "alg") (.str s)) ∧ ∃ kvs, bj = .obj kvs

/-- The claims as an array, in the order of the fields. -/
def Spec.arrayBody (x : Ext) (b : ProofJwtBody) : Json :=
  .arr [serOpt .str b.issuer, .str b.audience, serOpt .str b.subject, .str (x.showTime b.issuedAt),
    .str b.nonce, serOpt (fun t => .str (x.showTime t)) b.notBefore,
    serOpt (fun t => .str (x.showTime t)) b.expiresAt]

/-- C58 is violated by every body: it is also accepted as a bare array. -/
theorem C58_array_body_accepted (x : Ext) (h : ProofJwtHeader) (b : ProofJwtBody) (sig : Option Str)
    (ht : TimesOk x b) (hsig : ∀ s ∈ sig, NoDot s) (hs bs : Str)
    (hh : IsDocSegment h.ser.print hs) (hb : IsDocSegment (arrayBody x b).print bs) :
    ProofJwt.fromStr x (dotted (hs :: bs :: sig.toList)) = .ok ⟨h, b, sig⟩ := by
  rw [← ((C44_base64url_rfc4648 _ _).2.2 hh), ← ((C44_base64url_rfc4648 _ _).2.2 hb)]
  have hf : Fits 127 (arrayBody x b) :=
    fits_arr (n := 126) (forall_cons (fits_serOpt _ fun _ _ => fits_str _ _) (forall_cons (fits_str _ _)
      (forall_cons (fits_serOpt _ fun _ _ => fits_str _ _) (forall_cons (fits_str _ _)
      (forall_cons (fits_str _ _) (forall_cons (fits_serOpt _ fun _ _ => fits_str _ _)
      (forall_cons (fits_serOpt _ fun _ _ => fits_str _ _) forall_nil)))))))
  have hde : ProofJwtBody.de x (arrayBody x b) = some b := by
    obtain ⟨iss, aud, sub, iat, nonce, nbf, exp⟩ := b
    have h1 : deTime x (.str (x.showTime iat)) = some iat := ht.1
    have h2 : opt (deTime x) (some (serOpt (fun t => .str (x.showTime t)) nbf)) = some nbf :=
      opt_serOpt nbf (fun _ _ => by simp) ht.2.1
    have h3 : opt (deTime x) (some (serOpt (fun t => .str (x.showTime t)) exp)) = some exp :=
      opt_serOpt exp (fun _ _ => by simp) ht.2.2
    unfold ProofJwtBody.de
    simp only [arrayBody, struct, List.length_cons, List.length_nil, if_true, List.map_cons,
      List.map_nil, opt_str, req, Serde.string, h1, h2, h3]
    rfl
  have := ProofJwt.fromStr_docs x sig.toList (by simpa using hsig) (header_fits h) hf
    (ProofJwtHeader.de_ser h) hde
  rw [this]
  cases sig <;> rfl

/-- The array of a body with all claims. -/
example : ProofJwt.fromStr Ex.ext (dotted [base64urlEncode (utf8Encode Ex.header.ser.print),
    base64urlEncode (utf8Encode (arrayBody Ex.ext Ex.body).print)]) = .ok ⟨Ex.header, Ex.body, none⟩ :=
  C58_array_body_accepted Ex.ext Ex.header Ex.body none Ex.timesOk_body (by simp) _ _ (isBase64url_encode _)
    (isBase64url_encode _)

/-- C58 is violated by every header: it is also accepted with the object `{"<alg>": null}` as `alg`. -/
theorem C58_object_alg_accepted (x : Ext) (h : ProofJwtHeader) (b : ProofJwtBody) (sig : Option Str)
    (ht : TimesOk x b) (hsig : ∀ s ∈ sig, NoDot s) (hs bs : Str)
    (hh : IsDocSegment (Json.obj ([(str! "typ", .str h.typ), (str! "alg", .obj [(h.alg.name, .null)])]
      ++ (h.additionalHeader.map ProofJwtAdditionalHeader.member).toList)).print hs)
    (hb : IsDocSegment (b.ser x).print bs) :
    ProofJwt.fromStr x (dotted (hs :: bs :: sig.toList)) = .ok ⟨h, b, sig⟩ := by
  rw [← ((C44_base64url_rfc4648 _ _).2.2 hh), ← ((C44_base64url_rfc4648 _ _).2.2 hb)]
  have hf : Fits 127 (Json.obj ([(str! "typ", .str h.typ), (str! "alg", .obj [(h.alg.name, .null)])]
      ++ (h.additionalHeader.map ProofJwtAdditionalHeader.member).toList)) := by
    refine fits_obj (n := 126) (forall_append (forall_cons (fits_str _ _) (forall_cons
      (fits_obj (n := 125) (forall_cons (fits_null _) forall_nil)) forall_nil)) ?_)
    intro p hp
    simp only [Option.mem_toList, Option.map_eq_some_iff] at hp
    obtain ⟨a, -, rfl⟩ := hp
    cases a <;> exact fits_str _ _
  have hde : ProofJwtHeader.de (Json.obj ([(str! "typ", .str h.typ),
      (str! "alg", .obj [(h.alg.name, .null)])]
      ++ (h.additionalHeader.map ProofJwtAdditionalHeader.member).toList)) = some h := by
    obtain ⟨typ, alg, add⟩ := h
    have hst : structFlat [str! "typ", str! "alg"] (Json.obj ([(str! "typ", .str typ),
        (str! "alg", .obj [(alg.name, .null)])] ++ (add.map ProofJwtAdditionalHeader.member).toList))
        = some ([some (.str typ), some (.obj [(alg.name, .null)])],
            (add.map ProofJwtAdditionalHeader.member).toList) := by
      cases add with
      | none => rfl
      | some a => cases a <;> rfl
    have ha : ProofJwtAdditionalHeader.deFlat (add.map ProofJwtAdditionalHeader.member).toList = add := by
      cases add with
      | none => rfl
      | some a => cases a <;> rfl
    have hal : ProofJwtAlgorithm.de (.obj [(alg.name, .null)]) = some alg := by cases alg <;> rfl
    unfold ProofJwtHeader.de
    rw [hst]
    simp only [req, Serde.string, hal, ha]
    rfl
  have := ProofJwt.fromStr_docs x sig.toList (by simpa using hsig) hf (body_fits x b) hde
    (ProofJwtBody.de_ser x b ht)
  rw [this]
  cases sig <;> rfl

/-- The header `{"typ":…,"alg":{"EdDSA":null},"kid":…}`. -/
example : ∃ hs bs, ProofJwt.fromStr Ex.ext (dotted [hs, bs, str! "c2ln"])
    = .ok ⟨Ex.header, Ex.body, some (str! "c2ln")⟩ :=
  ⟨_, _, C58_object_alg_accepted Ex.ext Ex.header Ex.body (some (str! "c2ln")) Ex.timesOk_body
    (by rintro s ⟨⟩; simp [NoDot]) _ _ (isBase64url_encode _) (isBase64url_encode _)⟩

/-- C58 does not hold. -/
theorem C58_refuted : ¬ C58_statement := by
  intro hst
  have hf : Fits 127 (arrayBody Ex.ext Ex.body) :=
    fits_arr (n := 126) (forall_cons (fits_serOpt _ fun _ _ => fits_str _ _) (forall_cons (fits_str _ _)
      (forall_cons (fits_serOpt _ fun _ _ => fits_str _ _) (forall_cons (fits_str _ _)
      (forall_cons (fits_str _ _) (forall_cons (fits_serOpt _ fun _ _ => fits_str _ _)
      (forall_cons (fits_serOpt _ fun _ _ => fits_str _ _) forall_nil)))))))
  obtain ⟨-, kvs, h⟩ := hst Ex.ext _ _ [] _ _ _ _ _ (by
      intro p hp
      simp only [List.mem_cons, List.not_mem_nil, or_false] at hp
      rcases hp with rfl | rfl <;> exact noDot_encode _)
    (isBase64url_encode _) (isBase64url_encode _) (parseSlice_print (header_fits Ex.header))
    (Json.looseSlice_iff.1 (Json.looseSlice_of_parse (parseSlice_print hf)))
    (C58_array_body_accepted Ex.ext Ex.header Ex.body none Ex.timesOk_body (by simp) _ _
      (isBase64url_encode _) (isBase64url_encode _))
  cases h

/-- C58, what holds: the header is an object with `typ` exactly once, as a string, and `alg` exactly
once; the body is an object or an array of seven elements. Missing: `alg` being a string, and the
exclusion of arrays. -/
theorem C58_shapes_partial (x : Ext) (hs bs : Str) (rest : List Str) (hb bb : Bytes)
    (hj bj : Json) (j : ProofJwt) (hnd : ∀ p ∈ hs :: bs :: rest, NoDot p)
    (h1 : IsBase64url hb hs) (h2 : IsBase64url bb bs) (h3 : Json.parseSlice hb = some hj)
    (h4 : LooseText claimNames bj bb)
    (h5 : ProofJwt.fromStr x (dotted (hs :: bs :: rest)) = .ok j) :
    (∃ kvs, hj = .obj kvs ∧ Sole kvs (str! "typ") (.str j.header.typ) ∧ ∃ v, Sole kvs (str! "alg") v ∧
      (v = .str j.header.alg.name ∨ v = .obj [(j.header.alg.name, .null)])) ∧
    ((∃ kvs, bj = .obj kvs) ∨ ∃ vs, bj = .arr vs ∧ vs.length = 7) := by
  unfold ProofJwt.fromStr at h5
  rw [splitOn_dotted _ (by simp) hnd] at h5
  simp only [(C44_base64url_rfc4648 _ _).1.2 h1, (C44_base64url_rfc4648 _ _).1.2 h2, h3,
    ProofJwtBody.fromSlice_of_loose x h4, Option.bind_some] at h5
  split at h5
  · cases h5
  · rename_i h hde
    split at h5
    · cases h5
    · rename_i b bde
      injection h5 with h5
      subst h5
      refine ⟨?_, ?_⟩
      · unfold ProofJwtHeader.de at hde
        split at hde
        · rename_i typ alg r hst
          cases hj with
          | obj kvs =>
            simp only [structFlat, Option.map_eq_some_iff, Prod.mk.injEq] at hst
            obtain ⟨fs, hfs, rfl, -⟩ := hst
            simp only [fields_cons, fields_nil] at hfs
            obtain ⟨f1, f2, -⟩ := hfs
            simp only [Option.bind_eq_bind, Option.bind_eq_some_iff] at hde
            obtain ⟨t, e1, a, e2, hde⟩ := hde
            cases hde
            obtain ⟨v, hv, rfl⟩ := (req_field (fun _ _ => string_eq)).1 ⟨_, f1, e1⟩
            obtain ⟨w, hw, hw'⟩ := (req_field (is := fun v a => ProofJwtAlgorithm.de v = some a)
              (fun _ _ => Iff.rfl)).1 ⟨_, f2, e2⟩
            refine ⟨kvs, rfl, hv, w, hw, ?_⟩
            have hof : ∀ {s : Str} {a : ProofJwtAlgorithm}, ProofJwtAlgorithm.ofName s = some a →
                a.name = s := by
              intro s a h
              simpa using List.find?_some h
            unfold ProofJwtAlgorithm.de at hw'
            split at hw'
            · left; rw [hof hw']
            · right; rw [hof hw']
            · cases hw'
          | _ => simp [structFlat] at hst
        · cases hde
      · cases bj with
        | obj kvs => exact .inl ⟨_, rfl⟩
        | arr vs =>
          refine .inr ⟨vs, rfl, ?_⟩
          unfold ProofJwtBody.de at bde
          split at bde
          · rename_i hst
            simp only [struct] at hst
            split at hst
            · rename_i hl; simpa using hl
            · cases hst
          · cases bde
        | _ => simp [ProofJwtBody.de, struct] at bde

/-- The shapes in the JWT of a body with all claims. -/
example : ∃ kvs, Ex.header.ser = .obj kvs ∧ Sole kvs (str! "typ") (.str Ex.header.typ) := by
  obtain ⟨⟨kvs, h, ht, -⟩, -⟩ := C58_shapes_partial Ex.ext (base64urlEncode (utf8Encode Ex.header.ser.print))
    (base64urlEncode (utf8Encode (arrayBody Ex.ext Ex.body).print)) [] _ _ Ex.header.ser
    (arrayBody Ex.ext Ex.body) ⟨Ex.header, Ex.body, none⟩
    (by intro p hp; simp only [List.mem_cons, List.not_mem_nil, or_false] at hp
        rcases hp with rfl | rfl <;> exact noDot_encode _) (isBase64url_encode _) (isBase64url_encode _)
    (parseSlice_print (header_fits Ex.header))
    (Json.looseSlice_iff.1 (Json.looseSlice_of_parse (parseSlice_print (j := arrayBody Ex.ext Ex.body)
      ⟨by simp [arrayBody, PlainNumbers, PlainNumbersList, serOpt, Ex.body], by decide⟩)))
    (C58_array_body_accepted Ex.ext Ex.header Ex.body none Ex.timesOk_body (by simp) _ _ (isBase64url_encode _)
      (isBase64url_encode _))
  exact ⟨kvs, h, ht⟩

end Oid4vci
