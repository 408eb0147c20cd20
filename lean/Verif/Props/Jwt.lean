import Verif.Lemmas.Jwt
import Verif.Model.Request
import Verif.Spec.Example

/-!
Proof JWTs: C17 parsing, C18 segment count, C19 `typ` and `proof_type`, C20 and C21 validity window,
C29 and C30 signature, C31 and C32 signable message, C43 string conversion, C53 and C54 ambiguous and
duplicate members.
-/

namespace Oid4vci

open Spec Serde

namespace Ex

/-- A header naming its key by DID URL. -/
def header : ProofJwtHeader := ⟨proofTyp, .EdDSA, some (.keyId (str! "did:example:h#k"))⟩

/-- A body; the audience contains dots, as issuer URLs do. -/
def body : ProofJwtBody :=
  ⟨some (str! "client"), str! "https://issuer.example.com", none, 1000, str! "nonce", some 5,
    some 2000⟩

/-- A body without dots. -/
def plainBody : ProofJwtBody :=
  ⟨none, str! "https://issuer", some (str! "sub"), 1000, str! "nonce", none, none⟩

theorem timesOk (b : ProofJwtBody) (h1 : -(2 ^ 63) ≤ b.issuedAt ∧ b.issuedAt < 2 ^ 64)
    (h2 : ∀ t ∈ b.notBefore, -(2 ^ 63) ≤ t ∧ t < 2 ^ 64)
    (h3 : ∀ t ∈ b.expiresAt, -(2 ^ 63) ≤ t ∧ t < 2 ^ 64) : TimesOk ext b := by
  have key : ∀ t : Int, -(2 ^ 63) ≤ t ∧ t < 2 ^ 64 → ext.parseTime (ext.showTime t) = some t := by
    intro t ht
    have : Json.parse (Json.num t).print = some (.num t) :=
      (Json.parse_print_iff (.num t) (.num t) (by simpa [PlainNumbers] using ht)).2
        ⟨rfl, by simp [depth]⟩
    simp only [Json.print] at this
    simp only [ext, this]
  exact ⟨key _ h1, fun t ht => key t (h2 t ht), fun t ht => key t (h3 t ht)⟩

theorem timesOk_body : TimesOk ext body :=
  timesOk _ (by decide) (by simp [body]) (by simp [body])

theorem timesOk_plainBody : TimesOk ext plainBody :=
  timesOk _ (by decide) (by simp [plainBody]) (by simp [plainBody])

end Ex

/-! ### C17, C18: the compact form -/

/-- C17. base64url(header JSON) . base64url(body JSON), with or without a signature segment, parses to
exactly that header, body and signature. -/
theorem C17_parses (x : Ext) (h : ProofJwtHeader) (b : ProofJwtBody) (sig : Option Str)
    (ht : TimesOk x b) (hsig : ∀ s ∈ sig, NoDot s) (hs bs : Str)
    (hh : IsDocSegment h.ser.print hs) (hb : IsDocSegment (b.ser x).print bs) :
    ProofJwt.fromStr x (dotted (hs :: bs :: sig.toList)) = .ok ⟨h, b, sig⟩ := by
  rw [← ((C44_base64url_rfc4648 _ _).2.2 hh), ← ((C44_base64url_rfc4648 _ _).2.2 hb)]
  have := ProofJwt.fromStr_docs x sig.toList (by simpa using hsig) (header_fits h) (body_fits x b)
    (ProofJwtHeader.de_ser h) (ProofJwtBody.de_ser x b ht)
  rw [this]
  cases sig <;> rfl

/-- C17. Exactly which strings are accepted, and what they mean: at least two dot-separated segments,
the first two base64url of documents that deserialise; the third, if any, is the signature. The
header is JSON; of the body only the registered claims are looked at. -/
theorem C17_exact (x : Ext) (s : Str) (j : ProofJwt) :
    ProofJwt.fromStr x s = .ok j ↔ ∃ hs bs : Str, ∃ rest : List Str, ∃ hb bb : Bytes,
      ∃ hj bj : Json, s = dotted (hs :: bs :: rest) ∧ (∀ p ∈ hs :: bs :: rest, NoDot p) ∧
      IsBase64url hb hs ∧ IsBase64url bb bs ∧ Json.parseSlice hb = some hj ∧
      LooseText claimNames bj bb ∧ ProofJwtHeader.de hj = some j.header ∧
      ProofJwtBody.de x bj = some j.body ∧ j.signature = rest.head? := by
  rw [ProofJwt.fromStr_eq_ok]
  constructor
  · rintro ⟨hs, bs, rest, hb, bb, hsp, hhb, hbb, hhd, hbd, hsig⟩
    obtain ⟨-, hnd, hst⟩ := dotted_iff.1 hsp
    obtain ⟨hj, h1, h2⟩ := Option.bind_eq_some_iff.1 hhd
    obtain ⟨bj, h3, h4⟩ := ProofJwtBody.fromSlice_iff.1 hbd
    exact ⟨hs, bs, rest, hb, bb, hj, bj, hst, hnd, (C44_base64url_rfc4648 _ _).1.1 hhb,
      (C44_base64url_rfc4648 _ _).1.1 hbb, h1, h3, h2, h4, hsig⟩
  · rintro ⟨hs, bs, rest, hb, bb, hj, bj, hst, hnd, h1, h2, h3, h4, h5, h6, hsig⟩
    exact ⟨hs, bs, rest, hb, bb, dotted_iff.2 ⟨by simp, hnd, hst⟩,
      (C44_base64url_rfc4648 _ _).1.2 h1, (C44_base64url_rfc4648 _ _).1.2 h2,
      by rw [h3]; exact h5, ProofJwtBody.fromSlice_iff.2 ⟨bj, h4, h6⟩, hsig⟩

example : ∃ s, ProofJwt.fromStr Ex.ext s = .ok ⟨Ex.header, Ex.body, some (str! "c2ln")⟩ :=
  ⟨_, C17_parses Ex.ext Ex.header Ex.body (some (str! "c2ln")) Ex.timesOk_body
    (by simp [NoDot]) _ _ (isBase64url_encode _) (isBase64url_encode _)⟩

/-- C18, full statement: only two or three segments are accepted. -/
def C18_statement : Prop := ∀ (x : Ext) (s : Str) (j : ProofJwt),
  ProofJwt.fromStr x s = .ok j → s.count '.' = 1 ∨ s.count '.' = 2

/-- C18, the lower bound. -/
theorem C18_at_least_two_partial (x : Ext) (s : Str) (j : ProofJwt)
    (h : ProofJwt.fromStr x s = .ok j) : 1 ≤ s.count '.' := by
  obtain ⟨hs, bs, rest, hb, bb, hsp, -⟩ := ProofJwt.fromStr_eq_ok.1 h
  have := length_splitOn '.' s
  rw [hsp] at this
  simp at this; omega

/-- C18, a string with a single segment is rejected for want of a body. -/
theorem C18_one_segment_partial (x : Ext) (s : Str) (h : NoDot s) :
    ProofJwt.fromStr x s = .err (.any (str! "No body found in the `JWT`")) := by
  unfold ProofJwt.fromStr
  rw [splitOn_not_mem h]

example : ProofJwt.fromStr Ex.ext (str! "e30") = .err (.any (str! "No body found in the `JWT`")) :=
  C18_one_segment_partial _ _ (by simp [NoDot])

theorem splitOn_append_dot (s t : Str) : splitOn '.' (s ++ '.' :: t) = splitOn '.' s ++ splitOn '.' t := by
  refine dotted_iff.2 ⟨by simp [splitOn_ne_nil], ?_, ?_⟩
  · intro p hp
    rcases List.mem_append.1 hp with h | h
    · exact not_mem_splitOn _ _ p h
    · exact not_mem_splitOn _ _ p h
  · have key : ∀ l l' : List Str, l ≠ [] → l' ≠ [] →
        dotted (l ++ l') = dotted l ++ '.' :: dotted l' := by
      intro l l' hl hl'
      rw [← joinWith_eq_dotted, ← joinWith_eq_dotted, ← joinWith_eq_dotted]
      induction l with
      | nil => exact absurd rfl hl
      | cons a l ih =>
        cases l with
        | nil =>
          cases l' with
          | nil => exact absurd rfl hl'
          | cons c l' => rfl
        | cons b l =>
          have h1 : joinWith '.' (a :: b :: l ++ l') = a ++ '.' :: joinWith '.' (b :: l ++ l') := rfl
          have h2 : joinWith '.' (a :: b :: l) = a ++ '.' :: joinWith '.' (b :: l) := rfl
          rw [h1, ih (by simp), h2]
          simp
    rw [key _ _ (splitOn_ne_nil _ _) (splitOn_ne_nil _ _), ← joinWith_eq_dotted,
      ← joinWith_eq_dotted, joinWith_splitOn, joinWith_splitOn]

/-- C18 is violated for every signed JWT: whatever is appended after a further dot is ignored. -/
theorem C18_trailing_segments_ignored (x : Ext) (s t : Str) (j : ProofJwt)
    (h : ProofJwt.fromStr x s = .ok j) (hs : j.signature ≠ none) :
    ProofJwt.fromStr x (s ++ '.' :: t) = .ok j := by
  obtain ⟨hs', bs, rest, hb, bb, hsp, h1, h2, h3, h4, h5⟩ := ProofJwt.fromStr_eq_ok.1 h
  refine ProofJwt.fromStr_eq_ok.2 ⟨hs', bs, rest ++ splitOn '.' t, hb, bb, ?_, h1, h2, h3, h4, ?_⟩
  · rw [splitOn_append_dot, hsp]; rfl
  · cases rest with
    | nil => rw [h5] at hs; exact absurd rfl hs
    | cons a r => rw [h5]; rfl

/-- C18 does not hold. -/
theorem C18_refuted : ¬ C18_statement := by
  intro h
  have h1 := C17_parses Ex.ext Ex.header Ex.body (some (str! "c2ln")) Ex.timesOk_body
    (by simp [NoDot]) _ _ (isBase64url_encode _) (isBase64url_encode _)
  have h2 := C18_trailing_segments_ignored _ _ (str! "x.y") _ h1 (by simp)
  have h3 := C18_at_least_two_partial _ _ _ h1
  have := h _ _ _ h2
  rw [List.count_append, show (str! ".x.y").count '.' = 2 by decide] at this
  omega

/-! ### C19: letter case -/

theorem lowerChar_eq_iff {c d : Char} (hd : d ∈ proofTyp) : lowerChar c = d ↔ SameLetter c d := by
  have key : ∀ d ∈ proofTyp, ∀ n : Fin 128,
      lowerChar (Char.ofNat n.1) = d ↔ SameLetter (Char.ofNat n.1) d := by
    have : ∀ d ∈ proofTyp, ∀ n : Fin 128, decide (lowerChar (Char.ofNat n.1) = d) = 
      decide (Char.ofNat n.1 = d ∨ (Char.ofNat n.1, d) ∈ letterPairs
        ∨ (d, Char.ofNat n.1) ∈ letterPairs) := by decide +kernel
    intro d hd n
    have := this d hd n
    rw [decide_eq_decide] at this
    exact this
  by_cases hc : c.toNat < 128
  · have := key d hd ⟨c.toNat, hc⟩
    simpa only [Char.ofNat_toNat] using this
  · have h1 : lowerChar c = c := by
      unfold lowerChar
      rw [if_neg]
      rintro ⟨-, h⟩
      have : c.toNat ≤ 'Z'.toNat := h
      have hz : 'Z'.toNat = 90 := by decide
      omega
    have h2 : ∀ p ∈ letterPairs, p.1.toNat < 128 ∧ p.2.toNat < 128 := by decide
    rw [h1]
    constructor
    · exact .inl
    · rintro (h | h | h)
      · exact h
      · exact absurd (h2 _ h).1 hc
      · exact absurd (h2 _ h).2 hc

theorem upperChar_eq_iff {c d : Char} (hd : d ∈ jwtProofType) : upperChar c = d ↔ SameLetter c d := by
  have key : ∀ d ∈ jwtProofType, ∀ n : Fin 128,
      upperChar (Char.ofNat n.1) = d ↔ SameLetter (Char.ofNat n.1) d := by
    have : ∀ d ∈ jwtProofType, ∀ n : Fin 128, decide (upperChar (Char.ofNat n.1) = d) = 
      decide (Char.ofNat n.1 = d ∨ (Char.ofNat n.1, d) ∈ letterPairs
        ∨ (d, Char.ofNat n.1) ∈ letterPairs) := by decide +kernel
    intro d hd n
    have := this d hd n
    rw [decide_eq_decide] at this
    exact this
  by_cases hc : c.toNat < 128
  · have := key d hd ⟨c.toNat, hc⟩
    simpa only [Char.ofNat_toNat] using this
  · have h1 : upperChar c = c := by
      unfold upperChar
      rw [if_neg]
      rintro ⟨-, h⟩
      have : c.toNat ≤ 'z'.toNat := h
      have hz : 'z'.toNat = 122 := by decide
      omega
    have h2 : ∀ p ∈ letterPairs, p.1.toNat < 128 ∧ p.2.toNat < 128 := by decide
    rw [h1]
    constructor
    · exact .inl
    · rintro (h | h | h)
      · exact h
      · exact absurd (h2 _ h).1 hc
      · exact absurd (h2 _ h).2 hc

theorem map_eq_iff_forall₂ {f : Char → Char} {t : Str}
    (hf : ∀ c, ∀ d ∈ t, f c = d ↔ SameLetter c d) (s : Str) : s.map f = t ↔ EqFold s t := by
  induction s generalizing t with
  | nil =>
    cases t with
    | nil => simp [EqFold]
    | cons d t => simp [EqFold]
  | cons c s ih =>
    cases t with
    | nil => simp [EqFold]
    | cons d t =>
      unfold EqFold at ih ⊢
      rw [List.map_cons, List.cons.injEq, List.forall₂_cons, hf c d (by simp),
        ih fun c' d' hd' => hf c' d' (by simp [hd'])]

theorem lowercase_eq_iff (s : Str) : toLowercase s = proofTyp ↔ EqFold s proofTyp :=
  map_eq_iff_forall₂ (fun _ _ hd => lowerChar_eq_iff hd) s

theorem uppercase_eq_iff (s : Str) : toUppercase s = str! "JWT" ↔ EqFold s (str! "JWT") :=
  map_eq_iff_forall₂ (fun _ _ hd => upperChar_eq_iff hd) s

/-- C19. A proof JWT validates exactly when its `typ` is `openid4vci-proof+jwt` up to letter case. -/
theorem C19_typ (j : ProofJwt) : j.validate = .ok () ↔ EqFold j.header.typ proofTyp := by
  rw [← lowercase_eq_iff]
  unfold ProofJwt.validate ProofJwtHeader.validate ProofJwtBody.validate
  by_cases h : toLowercase j.header.typ = ProofJwtHeader.openid4vciProofType
  · rw [if_neg (not_not.2 h)]; exact ⟨fun _ => h, fun _ => rfl⟩
  · rw [if_pos h]; exact iff_of_false (by simp) h

/-- C19. A request validates exactly when it has no proof, or a proof whose type is `JWT` up to letter
case and whose JWT parses and has the right `typ`. -/
theorem C19_request (x : Ext) (r : CredentialRequest) :
    r.validate x = .ok () ↔ ∀ p ∈ r.proof, EqFold p.proofType (str! "JWT") ∧
      ∃ j, ProofJwt.fromStr x p.jwt = .ok j ∧ EqFold j.header.typ proofTyp := by
  unfold CredentialRequest.validate
  cases r.proof with
  | none => simp
  | some p =>
    simp only [Option.mem_def, Option.some.injEq, forall_eq', ← uppercase_eq_iff]
    unfold CredentialRequestProof.validate
    by_cases h : toUppercase p.proofType = jwtProofType
    · have h' : toUppercase p.proofType = str! "JWT" := h
      rw [if_neg (not_not.2 h)]
      simp only [Res.bind_eq_ok, h', true_and]
      constructor
      · rintro ⟨_, ⟨j, hj, _, hv, -⟩, -⟩
        exact ⟨j, hj, (C19_typ j).1 hv⟩
      · rintro ⟨j, hj, hv⟩
        exact ⟨(), ⟨j, hj, (), (C19_typ j).2 hv, trivial⟩, trivial⟩
    · rw [if_pos h]
      simp only [Res.bind_err]
      exact iff_of_false (by simp) fun h' => h h'.1

example : EqFold (str! "OpenId4VCI-Proof+JWT") proofTyp := (lowercase_eq_iff _).1 (by decide +kernel)
example : ¬ EqFold (str! "openid4vci-proof") proofTyp := fun h =>
  absurd ((lowercase_eq_iff _).2 h) (by decide +kernel)
example : EqFold (str! "jWt") (str! "JWT") := (uppercase_eq_iff _).1 (by decide +kernel)

/-! ### C20, C21: the validity window -/

/-- C20, full statement: `exp` is exclusive ("on or after which the JWT MUST NOT be accepted"). -/
def C20_statement : Prop := ∀ (j : ProofJwt) (now : Time),
  j.verify now = .ok () ↔ (∀ nb ∈ j.body.notBefore, nb ≤ now) ∧ ∀ ex ∈ j.body.expiresAt, now < ex

/-- C20 with an inclusive upper bound, which is what the code implements. -/
theorem C20_window_partial (j : ProofJwt) (now : Time) :
    j.verify now = .ok () ↔ InWindow j.body now := by
  unfold ProofJwt.verify InWindow
  cases j.body.notBefore <;> cases j.body.expiresAt
  · simp
  · simp only [Res.bind_ok, Option.mem_def, reduceCtorEq, false_imp_iff, implies_true, true_and,
      Option.some.injEq, forall_eq']
    split <;> simp_all
  · simp only [Option.mem_def, reduceCtorEq, false_imp_iff, implies_true, and_true,
      Option.some.injEq, forall_eq']
    split <;> simp_all
  · simp only [Option.mem_def, Option.some.injEq, forall_eq']
    rename_i nb ex
    by_cases h1 : now < nb
    · simp [h1]
    · by_cases h2 : now > ex
      · simp only [h1, h2]; simp [not_le.2 h2]
      · simp [h1, h2, not_lt.1 h1, not_lt.1 h2]

/-- C20. The error names the bound that is violated, and the lower one if both are. -/
theorem C20_error (j : ProofJwt) (now : Time) (e : JwtError) :
    j.verify now = .err e ↔
      (∃ nb, j.body.notBefore = some nb ∧ now < nb ∧ e = .notYetValid nb now) ∨
      ((∀ nb ∈ j.body.notBefore, nb ≤ now) ∧
        ∃ ex, j.body.expiresAt = some ex ∧ ex < now ∧ e = .notValidAnymore ex now) := by
  unfold ProofJwt.verify
  cases j.body.notBefore <;> cases j.body.expiresAt
  · simp
  · simp only [Res.bind_ok, Option.mem_def, reduceCtorEq, false_imp_iff, implies_true, true_and,
      Option.some.injEq, false_and, exists_false, false_or, exists_eq_left']
    split <;> simp_all [eq_comm]
  · simp only [Option.mem_def, reduceCtorEq, Option.some.injEq, forall_eq', false_and, exists_false,
      and_false, or_false, exists_eq_left']
    split <;> simp_all [eq_comm]
  · simp only [Option.mem_def, Option.some.injEq, forall_eq', exists_eq_left']
    split
    · rename_i h
      simp only [Res.bind_err, Res.err.injEq, h, true_and]
      constructor
      · exact fun h => .inl h.symm
      · rintro (h' | h')
        · exact h'.symm
        · exact absurd h (not_lt.2 h'.1)
    · rename_i h
      simp only [Res.bind_ok]
      split
      · rename_i h2
        simp only [Res.err.injEq]
        constructor
        · exact fun h => .inr ⟨not_lt.1 (by assumption), h2, h.symm⟩
        · rintro (h' | h')
          · exact absurd h'.1 h
          · exact h'.2.2.symm
      · simp only [reduceCtorEq, false_iff, not_or, not_and]
        exact ⟨fun h' => absurd h' h, fun _ h' => absurd h' (by assumption)⟩

/-- C20 is violated by every JWT with an expiry at or after its `nbf`: it is accepted at that
instant. -/
theorem C20_accepted_at_exp (j : ProofJwt) (ex : Time) (h : j.body.expiresAt = some ex)
    (hn : ∀ nb ∈ j.body.notBefore, nb ≤ ex) : j.verify ex = .ok () :=
  (C20_window_partial j ex).2 ⟨hn, by simp [h]⟩

/-- C20 does not hold. -/
theorem C20_refuted : ¬ C20_statement := by
  intro h
  have := (h ⟨Ex.header, Ex.body, none⟩ 2000).1 (C20_accepted_at_exp _ 2000 rfl (by simp [Ex.body]))
  exact absurd (this.2 2000 rfl) (by simp)

/-- C21. Expiry is permanent, being early is so for all earlier instants, and the accepted instants
form an interval. -/
theorem C21_monotone (j : ProofJwt) (t t' u : Time) (htt : t ≤ t') (htu : t' ≤ u) :
    (∀ ex, j.verify t = .err (.notValidAnymore ex t) →
      j.verify t' = .err (.notValidAnymore ex t')) ∧
    (∀ nb, j.verify t' = .err (.notYetValid nb t') → j.verify t = .err (.notYetValid nb t)) ∧
    (j.verify t = .ok () → j.verify u = .ok () → j.verify t' = .ok ()) := by
  refine ⟨fun ex h => ?_, fun nb h => ?_, fun h1 h2 => ?_⟩
  · rcases (C20_error j t _).1 h with ⟨_, -, -, h'⟩ | ⟨h1, ex', h2, h3, h4⟩
    · cases h'
    · cases h4
      exact (C20_error j t' _).2 (.inr ⟨fun nb hnb => (h1 nb hnb).trans htt, ex, h2,
        lt_of_lt_of_le h3 htt, rfl⟩)
  · rcases (C20_error j t' _).1 h with ⟨nb', h1, h2, h'⟩ | ⟨-, _, -, -, h4⟩
    · cases h'
      exact (C20_error j t _).2 (.inl ⟨nb, h1, lt_of_le_of_lt htt h2, rfl⟩)
    · cases h4
  · rw [C20_window_partial] at h1 h2 ⊢
    exact ⟨fun nb hnb => (h1.1 nb hnb).trans htt, fun ex hex => htu.trans (h2.2 ex hex)⟩

/-- Rejected one nanosecond past `exp`, hence ever after. -/
example : (⟨Ex.header, Ex.body, none⟩ : ProofJwt).verify 5000 = .err (.notValidAnymore 2000 5000) :=
  (C21_monotone ⟨Ex.header, Ex.body, none⟩ 2001 5000 5000 (by decide) (by decide)).1 _ (by decide +kernel)

/-- C21. At every instant a JWT is accepted, too early or expired; there is no other outcome. -/
theorem C21_total (j : ProofJwt) (now : Time) :
    j.verify now = .ok () ∨ (∃ nb, j.verify now = .err (.notYetValid nb now)) ∨
      ∃ ex, j.verify now = .err (.notValidAnymore ex now) := by
  by_cases h1 : ∀ nb ∈ j.body.notBefore, nb ≤ now
  · by_cases h2 : ∀ ex ∈ j.body.expiresAt, now ≤ ex
    · exact .inl ((C20_window_partial j now).2 ⟨h1, h2⟩)
    · simp only [not_forall, not_le] at h2
      obtain ⟨ex, hex, hlt⟩ := h2
      exact .inr (.inr ⟨ex, (C20_error _ _ _).2 (.inr ⟨h1, ex, hex, hlt, rfl⟩)⟩)
  · simp only [not_forall, not_le] at h1
    obtain ⟨nb, hnb, hlt⟩ := h1
    exact .inr (.inl ⟨nb, (C20_error _ _ _).2 (.inl ⟨nb, hnb, hlt, rfl⟩)⟩)

example : (⟨Ex.header, Ex.body, none⟩ : ProofJwt).verify 1500 = .ok () ∧
    (⟨Ex.header, Ex.body, none⟩ : ProofJwt).verify 2001 = .err (.notValidAnymore 2000 2001) ∧
    (⟨Ex.header, Ex.body, none⟩ : ProofJwt).verify 4 = .err (.notYetValid 5 4) := by decide

/-! ### C29, C30: the signature -/

/-- Header and body without dots: the third piece is the signature, if any. -/
theorem extractSignature_dotFree (x : Ext) (j : ProofJwt) (hh : HeaderDotFree j.header)
    (hb : BodyDotFree x j.body) : j.extractSignature x = match j.signature with
      | some s => .ok (utf8Encode s)
      | none => .err (.signatureNotInJwt (j.toStr x)) := by
  rw [headerDotFree_iff] at hh
  rw [bodyDotFree_iff] at hb
  unfold ProofJwt.extractSignature
  simp only [splitN_three, ProofJwt.toStr_eq]
  simp only [cut_append' hh, Option.bind_some]
  cases j.signature with
  | none => simp only [List.append_nil, cut_not_mem' hb]
  | some s => simp only [cut_append' hb]

/-- With a dot in header or body: something else is returned, longer than the signature. -/
theorem extractSignature_dot (x : Ext) (j : ProofJwt)
    (hd : ¬ (HeaderDotFree j.header ∧ BodyDotFree x j.body)) :
    ∃ t, j.extractSignature x = .ok (utf8Encode t) ∧ (j.signature.getD []).length < t.length := by
  rw [headerDotFree_iff, bodyDotFree_iff] at hd
  unfold ProofJwt.extractSignature
  obtain ⟨tail, hstr, hlen⟩ : ∃ tail, j.toStr x = j.header.ser.print ++ '.' ::
      ((j.body.ser x).print ++ tail) ∧ (j.signature.getD []).length ≤ tail.length := by
    refine ⟨_, ProofJwt.toStr_eq x j, ?_⟩
    cases j.signature <;> simp
  simp only [splitN_three, hstr]
  by_cases hh : NoDot j.header.ser.print
  · have hb : '.' ∈ (j.body.ser x).print := by
      by_contra hb; exact hd ⟨hh, hb⟩
    obtain ⟨a, b, hab, ha⟩ := exists_cut hb
    have hb0 : b ≠ [] := by
      rintro rfl
      have hne := congrArg List.getLast? hab
      have : ∃ r, (j.body.ser x).print = r ++ ['}'] := by
        unfold ProofJwtBody.ser
        exact print_obj_last _
      obtain ⟨r, hr⟩ := this
      rw [hr] at hne
      simp at hne
    refine ⟨b ++ tail, ?_, ?_⟩
    · simp only [cut_append' hh, Option.bind_some, hab, List.append_assoc, List.cons_append,
        cut_append' ha]
    · have := List.length_pos_of_ne_nil hb0
      rw [List.length_append]; omega
  · obtain ⟨a, b, hab, ha⟩ := exists_cut (not_not.1 hh)
    have hb0 : ∃ c d, b = c ++ '.' :: d ∧ NoDot c ∨ NoDot b := by
      by_cases hb : '.' ∈ b
      · obtain ⟨c, d, h1, h2⟩ := exists_cut hb
        exact ⟨c, d, .inl ⟨h1, h2⟩⟩
      · exact ⟨[], [], .inr hb⟩
    obtain ⟨c, d, ⟨rfl, hc⟩ | hb⟩ := hb0
    · refine ⟨d ++ '.' :: ((j.body.ser x).print ++ tail), ?_, ?_⟩
      · simp only [hab, List.append_assoc, List.cons_append, cut_append' ha, Option.bind_some,
          cut_append' hc]
      · simp; omega
    · refine ⟨(j.body.ser x).print ++ tail, ?_, ?_⟩
      · simp only [hab, List.append_assoc, List.cons_append, cut_append' ha, Option.bind_some,
          cut_append' hb]
      · have : ∃ r, (j.body.ser x).print = '{' :: r := by
          unfold ProofJwtBody.ser; exact print_obj_head
        obtain ⟨r, hr⟩ := this
        rw [hr]; simp; omega

/-- C29, full statement. -/
def C29_statement : Prop := ∀ (x : Ext) (j : ProofJwt), j.signature = none →
  ∃ e, j.extractSignature x = .err e

/-- C29. An unsigned JWT is rejected exactly when no string in its header and body has a dot (an
audience URL usually has one). Missing: the other unsigned JWTs, which are accepted. -/
theorem C29_iff_partial (x : Ext) (j : ProofJwt) (hs : j.signature = none) :
    (∃ e, j.extractSignature x = .err e) ↔ HeaderDotFree j.header ∧ BodyDotFree x j.body := by
  constructor
  · rintro ⟨e, he⟩
    by_contra hd
    obtain ⟨t, ht, -⟩ := extractSignature_dot x j hd
    rw [he] at ht; cases ht
  · rintro ⟨hh, hb⟩
    rw [extractSignature_dotFree x j hh hb, hs]
    exact ⟨_, rfl⟩

/-- C29 is violated whenever the audience has a dot. -/
theorem C29_dotted_audience_accepted (x : Ext) (j : ProofJwt) (_ : j.signature = none)
    (ha : '.' ∈ j.body.audience) : ∃ b, j.extractSignature x = .ok b := by
  obtain ⟨t, ht, -⟩ := extractSignature_dot x j fun h => h.2.2.1 ha
  exact ⟨_, ht⟩

/-- C29 does not hold. -/
theorem C29_refuted : ¬ C29_statement := by
  intro h
  obtain ⟨b, hb⟩ := C29_dotted_audience_accepted Ex.ext ⟨Ex.header, Ex.body, none⟩ rfl (by decide)
  obtain ⟨e, he⟩ := h Ex.ext ⟨Ex.header, Ex.body, none⟩ rfl
  rw [hb] at he; cases he

/-- C30, full statement. -/
def C30_statement : Prop := ∀ (x : Ext) (j : ProofJwt) (b : Bytes), j.extractSignature x = .ok b →
  ∃ s, j.signature = some s ∧ b = utf8Encode s

/-- C30. For a signed JWT the returned bytes are those of its signature exactly when no string in its
header and body has a dot. Missing: the other JWTs. -/
theorem C30_iff_partial (x : Ext) (j : ProofJwt) (s : Str) (hs : j.signature = some s) :
    j.extractSignature x = .ok (utf8Encode s) ↔ HeaderDotFree j.header ∧ BodyDotFree x j.body := by
  constructor
  · intro he
    by_contra hd
    obtain ⟨t, ht, hl⟩ := extractSignature_dot x j hd
    rw [he] at ht
    have := utf8Encode_injective (Res.ok.inj ht)
    rw [hs, ← this] at hl
    simp at hl
  · rintro ⟨hh, hb⟩
    rw [extractSignature_dotFree x j hh hb, hs]

/-- C30 does not hold: with a dot in the audience the returned bytes are never the signature. -/
theorem C30_refuted : ¬ C30_statement := by
  intro h
  obtain ⟨t, ht, -⟩ := extractSignature_dot Ex.ext ⟨Ex.header, Ex.body, some (str! "c2ln")⟩
    fun h => h.2.2.1 (by decide)
  obtain ⟨s, h1, h2⟩ := h _ _ _ ht
  rw [h2] at ht
  cases h1
  exact ((C30_iff_partial _ _ _ rfl).1 ht).2.2.1 (by decide)

theorem Ex.dotFree : HeaderDotFree Ex.header ∧ BodyDotFree Ex.ext Ex.plainBody := by
  refine ⟨(headerDotFree_iff _).2 ?_, (bodyDotFree_iff _ _).2 ?_⟩
  · rw [← count_zero_iff, count_print _ (header_fits _).1]; decide +kernel
  · rw [← count_zero_iff, count_print _ (body_fits _ _).1]; decide +kernel

example : (⟨Ex.header, Ex.plainBody, some (str! "c2ln")⟩ : ProofJwt).extractSignature Ex.ext
    = .ok (utf8Encode (str! "c2ln")) := (C30_iff_partial _ _ _ rfl).2 Ex.dotFree

/-! ### C31, C32: the signable message -/

/-- The message is the whole text, or header text, dot, body text, or a part of it. -/
theorem signable_cases (x : Ext) (j : ProofJwt) :
    ∃ m, j.toSignableMessage x = .ok (utf8Encode m) ∧ (∃ r, m = '{' :: r) ∧
      (j.signature ≠ none ∨ (j.header.ser.print.count '.' + (j.body.ser x).print.count '.' ≠ 1) →
        ∃ tail, m = j.header.ser.print ++ '.' :: ((j.body.ser x).print ++ tail)) := by
  unfold ProofJwt.toSignableMessage
  simp only
  by_cases hc : countChar '.' (j.toStr x) = 2
  · rw [if_pos hc]
    have hl := length_splitOn '.' (j.toStr x)
    unfold countChar at hc
    rw [hc] at hl
    obtain ⟨p0, p1, p2, hsp⟩ : ∃ p0 p1 p2, splitOn '.' (j.toStr x) = [p0, p1, p2] := by
      match h : splitOn '.' (j.toStr x), hl with
      | [a, b, c], _ => exact ⟨a, b, c, rfl⟩
    rw [hsp]
    refine ⟨p0 ++ '.' :: p1, rfl, ?_, ?_⟩
    · obtain ⟨r, hr⟩ := ProofJwt.toStr_head x j
      have := joinWith_splitOn '.' (j.toStr x)
      rw [hsp, hr] at this
      cases p0 with
      | nil => simp [joinWith] at this
      | cons c p0 =>
        simp only [joinWith, List.cons_append, List.cons.injEq] at this
        exact ⟨_, by rw [this.1]; rfl⟩
    · intro hj
      rw [ProofJwt.toStr_eq] at hc hsp
      simp only [List.count_append, List.count_cons_self] at hc
      cases hs : j.signature with
      | none =>
        rw [hs] at hc hj
        simp at hc hj
        omega
      | some s =>
        rw [hs] at hc hsp
        simp only [List.count_cons_self] at hc
        have h1 : NoDot j.header.ser.print := (count_zero_iff _).1 (by omega)
        have h2 : NoDot (j.body.ser x).print := (count_zero_iff _).1 (by omega)
        rw [splitOn_append _ h1] at hsp
        simp only [splitOn_append _ h2] at hsp
        injection hsp with e1 hsp
        injection hsp with e2 _
        exact ⟨[], by rw [e1, e2, List.append_nil]⟩
  · rw [if_neg hc]
    exact ⟨_, rfl, ProofJwt.toStr_head x j, fun _ => ⟨_, ProofJwt.toStr_eq x j⟩⟩

/-- C31 at the level of the JWT: the signable message of a parsed JWT is never the signing input of
the parsed string (the bytes of its first two segments): it always starts with a brace. -/
theorem C31_never_signing_input (x : Ext) (hs bs : Str) (rest : List Str) (j : ProofJwt)
    (hnd : ∀ p ∈ hs :: bs :: rest, NoDot p)
    (h : ProofJwt.fromStr x (dotted (hs :: bs :: rest)) = .ok j) :
    j.toSignableMessage x ≠ .ok (utf8Encode (dotted [hs, bs])) := by
  intro he
  obtain ⟨m, hm, ⟨r, rfl⟩, -⟩ := signable_cases x j
  rw [hm] at he
  have he := utf8Encode_injective (Res.ok.inj he)
  obtain ⟨hs', bs', rest', hb, bb, hsp, hhb, -⟩ := ProofJwt.fromStr_eq_ok.1 h
  rw [splitOn_dotted _ (by simp) hnd] at hsp
  injection hsp with e1 hsp
  subst e1
  cases hs with
  | nil => simp [dotted, List.intercalate] at he
  | cons c hs =>
    injection he with hc _
    rw [← hc, decode_brace] at hhb
    cases hhb

/-- A signed JWT. -/
example : ∃ hs bs, ProofJwt.fromStr Ex.ext (dotted [hs, bs, str! "c2ln"])
      = .ok ⟨Ex.header, Ex.body, some (str! "c2ln")⟩ ∧
    (⟨Ex.header, Ex.body, some (str! "c2ln")⟩ : ProofJwt).toSignableMessage Ex.ext
      ≠ .ok (utf8Encode (dotted [hs, bs])) := by
  have h := C17_parses Ex.ext Ex.header Ex.body (some (str! "c2ln")) Ex.timesOk_body (by rintro s ⟨⟩; simp [NoDot])
    _ _ (isBase64url_encode _) (isBase64url_encode _)
  refine ⟨_, _, h, C31_never_signing_input _ _ _ [str! "c2ln"] _ ?_ h⟩
  intro p hp
  simp only [List.mem_cons, List.not_mem_nil, or_false] at hp
  rcases hp with rfl | rfl | rfl
  · exact noDot_encode _
  · exact noDot_encode _
  · simp [NoDot]

/-- C31, the part that holds: for a signed JWT without dots in header and body the message is header
JSON, dot, body JSON (not base64url-encoded as the holder signed it). -/
theorem C31_unencoded_partial (x : Ext) (j : ProofJwt) (s : Str) (hsig : j.signature = some s)
    (hd : NoDot s) (hh : HeaderDotFree j.header) (hb : BodyDotFree x j.body) :
    j.toSignableMessage x = .ok (utf8Encode (dotted [j.header.ser.print, (j.body.ser x).print])) := by
  rw [headerDotFree_iff] at hh
  rw [bodyDotFree_iff] at hb
  have hstr : j.toStr x = dotted [j.header.ser.print, (j.body.ser x).print, s] := by
    rw [← joinWith_eq_dotted]; simp [ProofJwt.toStr, hsig]
  have hsp : splitOn '.' (j.toStr x) = [j.header.ser.print, (j.body.ser x).print, s] := by
    rw [hstr]
    refine splitOn_dotted _ (by simp) ?_
    intro p hp
    simp only [List.mem_cons, List.not_mem_nil, or_false] at hp
    rcases hp with rfl | rfl | rfl <;> assumption
  have hl := length_splitOn '.' (j.toStr x)
  rw [hsp] at hl
  unfold ProofJwt.toSignableMessage countChar
  simp only [List.length_cons, List.length_nil] at hl
  rw [if_pos (by omega)]
  simp only [hsp]
  simp [dotted, List.intercalate]

example : (⟨Ex.header, Ex.plainBody, some (str! "c2ln")⟩ : ProofJwt).toSignableMessage Ex.ext
    = .ok (utf8Encode (dotted [Ex.header.ser.print, (Ex.plainBody.ser Ex.ext).print])) :=
  C31_unencoded_partial _ _ _ rfl (by simp [NoDot]) Ex.dotFree.1 Ex.dotFree.2

/-- C32, full statement. -/
def C32_statement : Prop := ∀ (x : Ext) (i j : ProofJwt), TimesOk x i.body → TimesOk x j.body →
  i.toSignableMessage x = j.toSignableMessage x → i.header = j.header ∧ i.body = j.body

/-- C32 for signed JWTs, and for unsigned ones whose header and body texts do not have exactly one
dot between them. Missing: unsigned JWTs with exactly one dot, for which the statement is false. -/
theorem C32_commits_partial (x : Ext) (i j : ProofJwt) (ti : TimesOk x i.body)
    (tj : TimesOk x j.body)
    (hi : i.signature ≠ none ∨ i.header.ser.print.count '.' + (i.body.ser x).print.count '.' ≠ 1)
    (hj : j.signature ≠ none ∨ j.header.ser.print.count '.' + (j.body.ser x).print.count '.' ≠ 1)
    (h : i.toSignableMessage x = j.toSignableMessage x) : i.header = j.header ∧ i.body = j.body := by
  obtain ⟨m, hm, -, h1⟩ := signable_cases x i
  obtain ⟨n, hn, -, h2⟩ := signable_cases x j
  obtain ⟨t, rfl⟩ := h1 hi
  obtain ⟨u, rfl⟩ := h2 hj
  rw [hm, hn] at h
  have h := utf8Encode_injective (Res.ok.inj h)
  obtain ⟨e1, e2⟩ := print_obj_inj (v := i.header.ser) (w := j.header.ser) rfl rfl (header_fits i.header).1
    (header_fits j.header).1 h
  injection e2 with _ e2
  obtain ⟨e3, -⟩ := print_obj_inj (v := i.body.ser x) (w := j.body.ser x) rfl rfl (body_fits x i.body).1
    (body_fits x j.body).1 e2
  refine ⟨?_, ?_⟩
  · have := ProofJwtHeader.de_ser i.header
    rw [e1, ProofJwtHeader.de_ser] at this
    exact (Option.some.inj this).symm
  · have := ProofJwtBody.de_ser x i.body ti
    rw [e3, ProofJwtBody.de_ser x j.body tj] at this
    exact (Option.some.inj this).symm

/-- Two signed JWTs. -/
example : (⟨Ex.header, Ex.body, some []⟩ : ProofJwt).toSignableMessage Ex.ext
    ≠ (⟨Ex.header, Ex.plainBody, some []⟩ : ProofJwt).toSignableMessage Ex.ext := fun h =>
  absurd (C32_commits_partial _ _ _ Ex.timesOk_body Ex.timesOk_plainBody (.inl (by simp)) (.inl (by simp)) h).2
    (by decide)

/-- C32 is violated by every pair of unsigned JWTs with the same header that has one dot, and bodies
without dots: the message is the header alone, whatever the body claims. -/
theorem C32_body_not_covered (x : Ext) (h : ProofJwtHeader) (b : ProofJwtBody)
    (hh : h.ser.print.count '.' = 1) (hb : BodyDotFree x b) :
    (⟨h, b, none⟩ : ProofJwt).toSignableMessage x = .ok (utf8Encode h.ser.print) := by
  rw [bodyDotFree_iff] at hb
  obtain ⟨p, q, hpq, hp⟩ := exists_cut (c := '.') (s := h.ser.print)
    (List.count_pos_iff.1 (by omega))
  have hq : NoDot q := by
    rw [hpq, List.count_append, List.count_cons_self, (count_zero_iff p).2 hp] at hh
    exact (count_zero_iff q).1 (by omega)
  have hsp : splitOn '.' ((⟨h, b, none⟩ : ProofJwt).toStr x) = [p, q, (b.ser x).print] := by
    rw [ProofJwt.toStr_eq]
    simp only [hpq, List.append_nil, List.append_assoc, List.cons_append]
    rw [splitOn_append _ hp, splitOn_append _ hq, splitOn_not_mem hb]
  have hl := length_splitOn '.' ((⟨h, b, none⟩ : ProofJwt).toStr x)
  rw [hsp] at hl
  unfold ProofJwt.toSignableMessage countChar
  simp only [List.length_cons, List.length_nil] at hl
  rw [if_pos (by omega)]
  simp only [hsp, hpq]

/-- C32 does not hold. -/
theorem C32_refuted : ¬ C32_statement := by
  intro h
  let hd : ProofJwtHeader := ⟨proofTyp, .EdDSA, some (.keyId (str! "did:web:a.b"))⟩
  let b2 : ProofJwtBody := { Ex.plainBody with nonce := str! "other" }
  have hc : hd.ser.print.count '.' = 1 := by
    rw [count_print _ (header_fits _).1]; decide +kernel
  have hb2 : BodyDotFree Ex.ext b2 := by
    rw [bodyDotFree_iff, ← count_zero_iff, count_print _ (body_fits _ _).1]; decide +kernel
  have := h Ex.ext ⟨hd, Ex.plainBody, none⟩ ⟨hd, b2, none⟩ Ex.timesOk_plainBody
    (Ex.timesOk _ (by decide) (by simp [b2, Ex.plainBody]) (by simp [b2, Ex.plainBody]))
    (by rw [C32_body_not_covered _ _ _ hc Ex.dotFree.2, C32_body_not_covered _ _ _ hc hb2])
  exact absurd this.2 (by decide)

/-! ### C43: conversion to a string -/

/-- C43, full statement. -/
def C43_statement : Prop := ∀ (x : Ext) (j : ProofJwt), TimesOk x j.body →
  (∀ s ∈ j.signature, NoDot s) → ProofJwt.fromStr x (j.toStr x) = .ok j

/-- C43 is violated by every JWT: the string conversion does not base64url-encode, so `from_str` never
accepts its result. -/
theorem C43_never_parses (x : Ext) (i j : ProofJwt) : ProofJwt.fromStr x (j.toStr x) ≠ .ok i := by
  obtain ⟨r, hr⟩ := ProofJwt.toStr_head x j
  rw [hr]
  exact ProofJwt.fromStr_brace x r i

/-- C43 does not hold. -/
theorem C43_refuted : ¬ C43_statement := fun h =>
  C43_never_parses Ex.ext _ _ (h Ex.ext ⟨Ex.header, Ex.body, none⟩ Ex.timesOk_body (by simp))

/-- C43, the part that holds: the string conversion determines the JWT's header and body, and the
signature. -/
theorem C43_injective_partial (x : Ext) (i j : ProofJwt) (ti : TimesOk x i.body)
    (tj : TimesOk x j.body) (h : i.toStr x = j.toStr x) : i = j := by
  rw [ProofJwt.toStr_eq, ProofJwt.toStr_eq] at h
  obtain ⟨e1, e2⟩ := print_obj_inj (v := i.header.ser) (w := j.header.ser) rfl rfl (header_fits i.header).1
    (header_fits j.header).1 h
  injection e2 with _ e2
  obtain ⟨e3, e4⟩ := print_obj_inj (v := i.body.ser x) (w := j.body.ser x) rfl rfl (body_fits x i.body).1
    (body_fits x j.body).1 e2
  obtain ⟨hi, bi, si⟩ := i
  obtain ⟨hj, bj, sj⟩ := j
  have h1 := ProofJwtHeader.de_ser hi
  have h2 := ProofJwtBody.de_ser x bi ti
  simp only at e1 e3 e4
  rw [e1, ProofJwtHeader.de_ser] at h1
  rw [e3, ProofJwtBody.de_ser x bj tj] at h2
  cases h1; cases h2
  cases si <;> cases sj <;> simp_all

/-- Two bodies. -/
example : (⟨Ex.header, Ex.body, none⟩ : ProofJwt).toStr Ex.ext ≠ (⟨Ex.header, Ex.plainBody, none⟩ : ProofJwt).toStr Ex.ext :=
  fun h => absurd (C43_injective_partial _ _ _ Ex.timesOk_body Ex.timesOk_plainBody h) (by decide)

/-! ### C53, C54: ambiguous and duplicate members -/

/-- The members that identify the key. -/
def Spec.keyMembers : List Str := [str! "kid", str! "jwk", str! "x5c"]

/-- C53, full statement. -/
def C53_statement : Prop := ∀ (x : Ext) (hs : Str) (rest : List Str) (hb : Bytes)
  (kvs : List (Str × Json)), (∀ p ∈ hs :: rest, NoDot p) → IsBase64url hb hs →
  Json.parseSlice hb = some (.obj kvs) → 2 ≤ memberCount keyMembers kvs →
  ∀ j, ProofJwt.fromStr x (dotted (hs :: rest)) ≠ .ok j

/-- The key that a member of the header stands for. -/
def Spec.IsKey (a : ProofJwtAdditionalHeader) (k : Str) (v : Json) : Prop :=
  ∃ s, v = .str s ∧ ((k = str! "kid" ∧ a = .keyId s) ∨ (k = str! "jwk" ∧ a = .jwk s) ∨
    (k = str! "x5c" ∧ a = .x5c s))

theorem deFlat_eq_some {l : List (Str × Json)} {a : ProofJwtAdditionalHeader}
    (h : ProofJwtAdditionalHeader.deFlat l = some a) :
    ∃ l₁ k v l₂, l = l₁ ++ (k, v) :: l₂ ∧ (∀ p ∈ l₁, p.1 ∉ keyMembers) ∧ IsKey a k v := by
  have hstr : ∀ {v : Json} {s : Str}, Serde.string v = some s → v = .str s := by
    intro v s hs
    cases v <;> simp [Serde.string] at hs
    rw [hs]
  induction l with
  | nil => simp [ProofJwtAdditionalHeader.deFlat] at h
  | cons p l ih =>
    obtain ⟨k, v⟩ := p
    rw [ProofJwtAdditionalHeader.deFlat] at h
    split_ifs at h with h1 h2 h3
    · obtain ⟨s, hs, rfl⟩ := Option.map_eq_some_iff.1 h
      exact ⟨[], k, v, l, rfl, by simp, s, hstr hs, .inl ⟨h1, rfl⟩⟩
    · obtain ⟨s, hs, rfl⟩ := Option.map_eq_some_iff.1 h
      exact ⟨[], k, v, l, rfl, by simp, s, hstr hs, .inr (.inl ⟨h2, rfl⟩)⟩
    · obtain ⟨s, hs, rfl⟩ := Option.map_eq_some_iff.1 h
      exact ⟨[], k, v, l, rfl, by simp, s, hstr hs, .inr (.inr ⟨h3, rfl⟩)⟩
    · obtain ⟨l₁, k', v', l₂, rfl, hl, hk⟩ := ih h
      refine ⟨(k, v) :: l₁, k', v', l₂, rfl, ?_, hk⟩
      intro p hp
      rcases List.mem_cons.1 hp with rfl | hp
      · simp [keyMembers, h1, h2, h3]
      · exact hl p hp

/-- C53, what holds instead: the key of an accepted header is its first key member in document order.
Missing: the rejection of a second one. -/
theorem C53_first_key_partial (kvs : List (Str × Json)) (h : ProofJwtHeader)
    (a : ProofJwtAdditionalHeader) (hd : ProofJwtHeader.de (.obj kvs) = some h)
    (ha : h.additionalHeader = some a) :
    ∃ l₁ k v l₂, kvs = l₁ ++ (k, v) :: l₂ ∧ (∀ p ∈ l₁, p.1 ∉ keyMembers) ∧ IsKey a k v := by
  unfold ProofJwtHeader.de at hd
  split at hd
  · rename_i typ alg rest hsf
    simp only [Option.bind_eq_bind, Option.bind_eq_some_iff] at hd
    obtain ⟨t, -, al, -, he⟩ := hd
    cases he
    obtain ⟨l₁, k, v, l₂, hrest, hl₁, hk⟩ := deFlat_eq_some ha
    simp only [structFlat, Option.map_eq_some_iff, Prod.mk.injEq] at hsf
    obtain ⟨fs, -, -, hfil⟩ := hsf
    rw [hrest] at hfil
    obtain ⟨m₁, m₂, rfl, h1, h2⟩ := List.filter_eq_append_iff.1 hfil
    obtain ⟨n₁, n₂, rfl, h3, h4, h5⟩ := List.filter_eq_cons_iff.1 h2
    refine ⟨m₁ ++ n₁, k, v, n₂, by simp, ?_, hk⟩
    intro p hp
    have hnk : ∀ q : Str, q ∈ [str! "typ", str! "alg"] → q ∉ keyMembers := by decide
    rcases List.mem_append.1 hp with hp | hp
    · by_cases hq : p.1 ∈ [str! "typ", str! "alg"]
      · exact hnk _ hq
      · exact hl₁ p (h1 ▸ List.mem_filter.2 ⟨hp, by simpa using hq⟩)
    · have := h3 p hp
      simp only [decide_eq_true_eq, not_not] at this
      exact hnk _ this
  · cases hd

/-- Two key members. -/
example : ∃ l₁ k v l₂, [(str! "typ", Json.str proofTyp), (str! "alg", .str (str! "ES256")),
      (str! "x5c", .str (str! "c")), (str! "kid", .str (str! "did:a#k"))] = l₁ ++ (k, v) :: l₂ ∧
    (∀ p ∈ l₁, p.1 ∉ keyMembers) ∧ IsKey (.x5c (str! "c")) k v :=
  C53_first_key_partial _ ⟨proofTyp, .ES256, some (.x5c (str! "c"))⟩ _ (by decide +kernel) rfl

/-- C53 is violated for every proof: a further `jwk` or `x5c` member after the `kid` is ignored. -/
theorem C53_second_key_ignored (x : Ext) (typ kid other : Str) (alg : ProofJwtAlgorithm)
    (b : ProofJwtBody) (tb : TimesOk x b) (k : Str) (hk : k ∈ keyMembers) (sig : Option Str)
    (hsig : ∀ s ∈ sig, NoDot s) :
    ∃ hs bs, ProofJwt.fromStr x (dotted (hs :: bs :: sig.toList))
        = .ok ⟨⟨typ, alg, some (.keyId kid)⟩, b, sig⟩ ∧
      IsDocSegment (Json.obj [(str! "typ", .str typ), (str! "alg", alg.ser),
        (str! "kid", .str kid), (k, .str other)]).print hs ∧ ∀ p ∈ hs :: bs :: sig.toList, NoDot p := by
  refine ⟨_, base64urlEncode (utf8Encode (b.ser x).print), ?_, isBase64url_encode _, ?_⟩
  · have hde : ProofJwtHeader.de (Json.obj [(str! "typ", .str typ), (str! "alg", alg.ser),
        (str! "kid", .str kid), (k, .str other)]) = some ⟨typ, alg, some (.keyId kid)⟩ := by
      have hs : structFlat [str! "typ", str! "alg"] (Json.obj [(str! "typ", .str typ),
          (str! "alg", alg.ser), (str! "kid", .str kid), (k, .str other)])
          = some ([some (.str typ), some alg.ser], [(str! "kid", .str kid), (k, .str other)]) := by
        simp only [keyMembers, List.mem_cons, List.not_mem_nil, or_false] at hk
        rcases hk with rfl | rfl | rfl <;> rfl
      unfold ProofJwtHeader.de
      rw [hs]
      simp only [req, ProofJwtAlgorithm.de_ser]
      rfl
    have := ProofJwt.fromStr_docs x sig.toList (by simpa using hsig)
      (fits_obj (n := 126) (forall_cons (fits_str _ _) (forall_cons
        (by cases alg <;> exact fits_str _ _) (forall_cons (fits_str _ _) (forall_cons
        (fits_str _ _) forall_nil))))) (body_fits x b) hde (ProofJwtBody.de_ser x b tb)
    rw [this]
    cases sig <;> rfl
  · intro p hp
    rcases List.mem_cons.1 hp with rfl | hp
    · exact noDot_encode _
    · rcases List.mem_cons.1 hp with rfl | hp
      · exact noDot_encode _
      · simp only [Option.mem_toList] at hp
        exact hsig p hp

/-- C53 does not hold. -/
theorem C53_refuted : ¬ C53_statement := by
  intro h
  obtain ⟨hs, bs, h1, h2, h3⟩ := C53_second_key_ignored Ex.ext proofTyp (str! "did:example:h#k")
    (str! "{}") .EdDSA Ex.body Ex.timesOk_body (str! "jwk") (by decide) (some (str! "c2ln"))
    (by simp [NoDot])
  refine h Ex.ext hs _ _ _ h3 h2 (parseSlice_print (fits_obj (n := 126) (forall_cons (fits_str _ _)
    (forall_cons (fits_str _ _) (forall_cons (fits_str _ _) (forall_cons (fits_str _ _)
      forall_nil)))))) (by decide) _ h1

/-- A repeated member makes the fields of a struct fail. -/
theorem fields_duplicate {names : List Str} {kvs : List (Str × Json)} {k : Str} (hk : k ∈ names)
    (h : 2 ≤ memberCount [k] kvs) : fields names kvs = none := by
  have hf : field k kvs = none := by
    have : (occurrences k kvs).length = memberCount [k] kvs := by
      unfold occurrences memberCount
      rw [List.length_map, List.countP_eq_length_filter]
      simp
    unfold field
    match ho : occurrences k kvs, this with
    | [], hl => simp at hl; omega
    | [_], hl => simp at hl; omega
    | _ :: _ :: _, _ => rfl
  induction names with
  | nil => cases hk
  | cons n names ih =>
    rw [fields]
    rcases List.mem_cons.1 hk with rfl | hk
    · rw [hf]
    · rw [ih hk]
      cases field n kvs <;> rfl

/-- C54. A body in which a registered claim occurs twice is rejected. -/
theorem C54_body (x : Ext) (hs bs : Str) (rest : List Str) (bb : Bytes) (kvs : List (Str × Json))
    (k : Str) (hnd : ∀ p ∈ hs :: bs :: rest, NoDot p) (hb : IsBase64url bb bs)
    (hp : LooseText claimNames (.obj kvs) bb)
    (hk : k ∈ claimNames) (h2 : 2 ≤ memberCount [k] kvs) :
    ∃ e, ProofJwt.fromStr x (dotted (hs :: bs :: rest)) = .err e := by
  unfold ProofJwt.fromStr
  rw [splitOn_dotted _ (by simp) hnd]
  unfold claimNames at hk
  have hde : ProofJwtBody.de x (.obj kvs) = none := by
    unfold ProofJwtBody.de
    simp only [struct, fields_duplicate hk h2]
  have : ProofJwtBody.fromSlice x bb = none := by
    rw [ProofJwtBody.fromSlice_of_loose x hp, hde]
  simp only [(C44_base64url_rfc4648 _ _).1.2 hb, this]
  split
  · exact ⟨_, rfl⟩
  · split <;> exact ⟨_, rfl⟩

/-- Two nonces. -/
example : ∃ e, ProofJwt.fromStr Ex.ext (dotted [str! "e30", base64urlEncode (utf8Encode (str!
    "{\"aud\":\"a\",\"iat\":\"2\",\"nonce\":\"n\",\"nonce\":\"m\"}"))]) = .err e :=
  C54_body Ex.ext _ _ [] _ [(str! "aud", .str (str! "a")), (str! "iat", .str (str! "2")),
      (str! "nonce", .str (str! "n")), (str! "nonce", .str (str! "m"))] (str! "nonce")
    (by
      intro p hp
      simp only [List.mem_cons, List.not_mem_nil, or_false] at hp
      rcases hp with rfl | rfl
      · simp [NoDot]
      · exact noDot_encode _)
    (isBase64url_encode _) (Json.looseSlice_iff.1 (by decide +kernel)) (by decide +kernel) (by decide +kernel)

/-- C54. A header in which `typ` or `alg` occurs twice is rejected. -/
theorem C54_header (x : Ext) (hs : Str) (rest : List Str) (hb : Bytes) (kvs : List (Str × Json))
    (k : Str) (hnd : ∀ p ∈ hs :: rest, NoDot p) (hh : IsBase64url hb hs)
    (hp : Json.parseSlice hb = some (.obj kvs)) (hk : k ∈ [str! "typ", str! "alg"])
    (h2 : 2 ≤ memberCount [k] kvs) :
    ∃ e, ProofJwt.fromStr x (dotted (hs :: rest)) = .err e := by
  unfold ProofJwt.fromStr
  rw [splitOn_dotted _ (by simp) hnd]
  cases rest with
  | nil => exact ⟨_, rfl⟩
  | cons bs rest =>
    simp only [(C44_base64url_rfc4648 _ _).1.2 hh, hp, Option.bind_some]
    have : ProofJwtHeader.de (.obj kvs) = none := by
      unfold ProofJwtHeader.de
      simp only [structFlat, fields_duplicate hk h2, Option.map_none]
    simp only [this]
    split <;> exact ⟨_, rfl⟩

example : 2 ≤ memberCount [str! "aud"] [(str! "aud", .str (str! "a")), (str! "iat", .null),
    (str! "aud", .str (str! "b"))] := by decide
example : ∃ hs bb, IsBase64url bb hs ∧ Json.parseSlice bb = some (.obj [(str! "aud", .str (str! "a")),
    (str! "aud", .str (str! "b"))]) ∧ LooseText claimNames (.obj [(str! "aud", .str (str! "a")),
    (str! "aud", .str (str! "b"))]) bb := by
  have h : Json.parseSlice _ = some (.obj [(str! "aud", .str (str! "a")), (str! "aud", .str (str! "b"))]) :=
    parseSlice_print (fits_obj (n := 126) (forall_cons (fits_str _ _) (forall_cons (fits_str _ _) forall_nil)))
  exact ⟨_, _, isBase64url_encode _, h, Json.looseSlice_iff.1 (Json.looseSlice_of_parse h)⟩

/-- C29: an unsigned JWT without dots in its claims. -/
example : ∃ e, (⟨Ex.header, Ex.plainBody, none⟩ : ProofJwt).extractSignature Ex.ext = .err e :=
  (C29_iff_partial _ _ rfl).2 Ex.dotFree

end Oid4vci
