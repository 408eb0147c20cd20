import Verif.Lemmas.Token

/-! Token request evaluation: C01-C08 and C52 (access_token/mod.rs:155-255). -/

namespace Oid4vci

open AccessToken

/-! ### Concrete values used in the non-vacuity examples -/

namespace Ex

/-- An offer with a PIN-protected pre-authorized grant. -/
def pinOffer : CredentialOffer :=
  ⟨str! "https://issuer", [.credentialId (str! "id")], ⟨none, some ⟨str! "code", some true⟩⟩⟩

/-- The same offer listing both grants. -/
def bothOffer : CredentialOffer :=
  ⟨str! "https://issuer", [.credentialId (str! "id")],
    ⟨some ⟨some (str! "state")⟩, some ⟨str! "code", some true⟩⟩⟩

/-- A request with code and PIN. -/
def tokenRequest (code : Str) (pin : Option UInt64) : AccessTokenRequest :=
  ⟨.preAuthorizedCodeFlow code pin⟩

end Ex

/-! ### C01 -/

/-- C01. Acceptance is exact. (The length check admits 9 digits; see C05.) -/
theorem C01_accept_iff (r : AccessTokenRequest) (offer : Option CredentialOffer)
    (options : Option EvaluateAccessTokenRequestOptions) :
    evaluateAccessTokenRequest r offer options = .ok () ↔ Spec.TokenAccepted 9 r offer options := by
  obtain ⟨g⟩ := r
  cases g with
  | authorizedCodeFlow =>
    simp [evaluateAccessTokenRequest, AccessTokenRequest.validate, GrantType.validate,
      Spec.TokenAccepted]
  | preAuthorizedCodeFlow code pin =>
    have hT : Spec.TokenAccepted 9 ⟨.preAuthorizedCodeFlow code pin⟩ offer options ↔
        ((∀ n, pin = some n → Spec.AtMostDigits 9 n.toNat) ∧
          ∃ p, Spec.preGrant offer = some p ∧
            Spec.preTable code pin p (Spec.expectedPin options) = none) := by
      simp only [Spec.TokenAccepted, preTable_none_iff]
      constructor
      · rintro ⟨c, pn, p, hg, hp, hc, hpin, hall⟩
        cases hg
        exact ⟨fun n hn => (hall n hn).1, p, hp, hc, hpin, fun n hn => (hall n hn).2⟩
      · rintro ⟨hd, p, hp, hc, hpin, hall⟩
        exact ⟨code, pin, p, rfl, hp, hc, hpin, fun n hn => ⟨hd n hn, hall n hn⟩⟩
    rw [hT, ← validate_ok_iff code pin]
    rcases validate_cases (.preAuthorizedCodeFlow code pin) with hv | ⟨e, hv⟩
    · rw [evaluate_pre_eq _ _ _ _ hv]
      simp only [hv, true_and]
      rcases offer with _ | ⟨ci, cs, ⟨a, p⟩⟩
      · simp [Spec.grantTable, ofTable, Spec.preGrant]
      · rcases a with _ | a <;> rcases p with _ | p
        · simp [Spec.grantTable, ofTable, Spec.preGrant]
        · cases h : Spec.preTable code pin p (Spec.expectedPin options) <;>
            simp [Spec.grantTable, ofTable, Spec.preGrant, h]
        · simp [Spec.grantTable, ofTable, Spec.preGrant]
        · cases h : Spec.preTable code pin p (Spec.expectedPin options) <;>
            simp [Spec.grantTable, ofTable, Spec.preGrant, h]
    · rw [evaluate_invalid _ _ _ _ hv]
      simp [hv]

/-- Non-vacuity: an accepted request, and four near misses. -/
example : evaluateAccessTokenRequest (Ex.tokenRequest (str! "code") (some 1234)) (some Ex.pinOffer)
    (some ⟨some 1234⟩) = .ok () := by decide +kernel
example : ¬ Spec.TokenAccepted 9 (Ex.tokenRequest (str! "code") (some 1235)) (some Ex.pinOffer)
    (some ⟨some 1234⟩) := by rw [← C01_accept_iff]; decide +kernel
example : ¬ Spec.TokenAccepted 9 (Ex.tokenRequest (str! "code") none) (some Ex.pinOffer)
    (some ⟨some 1234⟩) := by rw [← C01_accept_iff]; decide +kernel
example : ¬ Spec.TokenAccepted 9 (Ex.tokenRequest (str! "kode") (some 1234)) (some Ex.pinOffer)
    (some ⟨some 1234⟩) := by rw [← C01_accept_iff]; decide +kernel
example : ¬ Spec.TokenAccepted 9 (Ex.tokenRequest (str! "code") (some 1234)) none
    (some ⟨some 1234⟩) := by rw [← C01_accept_iff]; decide +kernel

/-! ### C02 -/

/-- C02. A PIN-protected offer is only redeemed with the configured PIN. -/
theorem C02_pin_required (r : AccessTokenRequest) (o : CredentialOffer) (p : PreAuthorizedCodeFlow)
    (options : Option EvaluateAccessTokenRequestOptions)
    (hp : o.grants.preAuthorizedCodeFlow = some p) (hreq : p.userPinRequired = some true)
    (hok : evaluateAccessTokenRequest r (some o) options = .ok ()) :
    ∃ code pin opts, r.grantType = .preAuthorizedCodeFlow code (some pin) ∧
      options = some opts ∧ opts.expectedUserPin = some pin := by
  obtain ⟨code, pin, p', hg, hp', -, hpin, hall⟩ := (C01_accept_iff _ _ _).1 hok
  have : p' = p := by simpa [Spec.preGrant, hp, eq_comm] using hp'
  subst this
  obtain ⟨n, rfl⟩ := Option.ne_none_iff_exists'.1 (hpin.2 hreq)
  have hex := (hall n rfl).2
  cases options with
  | none => simp [Spec.expectedPin] at hex
  | some opts => exact ⟨code, n, opts, hg, rfl, by simpa [Spec.expectedPin] using hex⟩

example : ∃ r options, evaluateAccessTokenRequest r (some Ex.pinOffer) options = .ok () :=
  ⟨Ex.tokenRequest (str! "code") (some 7), some ⟨some 7⟩, by decide +kernel⟩

/-! ### C03 -/

/-- C03. A wrong code is never accepted. -/
theorem C03_wrong_code (code : Str) (pin : Option UInt64) (o : CredentialOffer)
    (options : Option EvaluateAccessTokenRequestOptions)
    (hne : ∀ p, o.grants.preAuthorizedCodeFlow = some p → p.code ≠ code) :
    evaluateAccessTokenRequest ⟨.preAuthorizedCodeFlow code pin⟩ (some o) options ≠ .ok () := by
  intro hok
  obtain ⟨c, pn, p, hg, hp, hc, -⟩ := (C01_accept_iff _ _ _).1 hok
  cases hg
  exact hne p hp hc.symm

example : ∀ p, Ex.bothOffer.grants.preAuthorizedCodeFlow = some p → p.code ≠ str! "kode" := by
  decide +kernel

/-! ### C04 (the part about `create_offer` is `C04_create_offer` in Props/Offer) -/

/-- C04. The authorization_code grant is always rejected, with the same error. -/
theorem C04_authorization_code (offer : Option CredentialOffer)
    (options : Option EvaluateAccessTokenRequestOptions) :
    evaluateAccessTokenRequest ⟨.authorizedCodeFlow⟩ offer options
      = .err .authorizedFlowNotSupported := by
  simp [evaluateAccessTokenRequest, AccessTokenRequest.validate, GrantType.validate]

/-! ### C05 -/

/-- C05 in full: a PIN passes the check exactly if it has at most 8 digits. -/
def C05_statement : Prop := ∀ (code : Str) (pin : UInt64),
  (GrantType.preAuthorizedCodeFlow code (some pin)).validate = .ok () ↔
    Spec.AtMostDigits 8 pin.toNat

/-- C05 is violated: `ilog10` is one less than the number of digits, so 9-digit PINs pass. -/
theorem C05_refuted : ¬ C05_statement := by
  intro h
  have h1 := (h [] 123456789).1 (by decide +kernel)
  rw [atMostDigits_iff] at h1
  exact absurd h1 (by decide)

/-- Every 9-digit PIN is a counterexample. -/
theorem C05_every_nine_digit_pin_accepted (code : Str) (pin : UInt64)
    (h9 : (Nat.digits 10 pin.toNat).length = 9) :
    (GrantType.preAuthorizedCodeFlow code (some pin)).validate = .ok () ∧
      ¬ Spec.AtMostDigits 8 pin.toNat := by
  rw [validate_ok_iff]
  refine ⟨?_, ?_⟩
  · rintro n ⟨⟩; simp [Spec.AtMostDigits, h9]
  · simp [Spec.AtMostDigits, h9]

example : (Nat.digits 10 (123456789 : UInt64).toNat).length = 9 := by decide

/-- C05, partial: PINs with at most 8 digits pass, PINs with 10 or more digits are rejected with a
validation error, at both levels. Missing: the rejection of 9-digit PINs (false, see above). -/
theorem C05_pin_length_partial (code : Str) (pin : UInt64) (offer : Option CredentialOffer)
    (options : Option EvaluateAccessTokenRequestOptions) :
    (Spec.AtMostDigits 8 pin.toNat →
      (GrantType.preAuthorizedCodeFlow code (some pin)).validate = .ok ()) ∧
    (¬ Spec.AtMostDigits 9 pin.toNat → ∃ e,
      (GrantType.preAuthorizedCodeFlow code (some pin)).validate = .err e ∧
      evaluateAccessTokenRequest ⟨.preAuthorizedCodeFlow code (some pin)⟩ offer options
        = .err (.validationError e)) := by
  constructor
  · intro h
    rw [validate_ok_iff]
    rintro n ⟨⟩
    exact Nat.le_trans h (by decide)
  · intro h
    rcases validate_cases (.preAuthorizedCodeFlow code (some pin)) with hv | ⟨e, hv⟩
    · exact absurd ((validate_ok_iff _ _).1 hv pin rfl) h
    · exact ⟨e, hv, evaluate_invalid _ _ _ _ hv⟩

example : Spec.AtMostDigits 8 (99999999 : UInt64).toNat := by rw [atMostDigits_iff]; decide
example : ¬ Spec.AtMostDigits 9 (1000000000 : UInt64).toNat := by rw [atMostDigits_iff]; decide

/-! ### C06 -/

/-- C06. Adding an authorized grant to an offer with a pre-authorized grant changes nothing about
acceptance; without a pre-authorized grant nothing is accepted. -/
theorem C06_authorized_entry (r : AccessTokenRequest) (issuer issuer' : Str)
    (creds creds' : CredentialOrIds) (a : Option AuthorizedCodeFlow)
    (p : Option PreAuthorizedCodeFlow) (options : Option EvaluateAccessTokenRequestOptions) :
    (evaluateAccessTokenRequest r (some ⟨issuer, creds, ⟨a, p⟩⟩) options = .ok () ↔
      evaluateAccessTokenRequest r (some ⟨issuer', creds', ⟨none, p⟩⟩) options = .ok ()) ∧
    (p = none →
      evaluateAccessTokenRequest r (some ⟨issuer, creds, ⟨a, p⟩⟩) options ≠ .ok ()) := by
  constructor
  · rw [C01_accept_iff, C01_accept_iff]; rfl
  · rintro rfl hok
    obtain ⟨_, _, _, -, hp, -⟩ := (C01_accept_iff _ _ _).1 hok
    simp [Spec.preGrant] at hp

example : evaluateAccessTokenRequest (Ex.tokenRequest (str! "code") (some 1234))
    (some Ex.bothOffer) (some ⟨some 1234⟩) = .ok () := by decide +kernel

/-! ### C07 -/

/-- C07. The result is the one of the decision table: unsupported grant, PIN length (as a validation
error), then `Spec.grantTable`. -/
theorem C07_decision_table (r : AccessTokenRequest) (offer : Option CredentialOffer)
    (options : Option EvaluateAccessTokenRequestOptions) :
    (r.grantType = .authorizedCodeFlow →
      evaluateAccessTokenRequest r offer options = .err .authorizedFlowNotSupported) ∧
    (∀ code pin, r.grantType = .preAuthorizedCodeFlow code pin →
      ((∃ n, pin = some n ∧ ¬ Spec.AtMostDigits 9 n.toNat) →
        ∃ m, evaluateAccessTokenRequest r offer options = .err (.validationError (.any m))) ∧
      ((∀ n, pin = some n → Spec.AtMostDigits 9 n.toNat) →
        match Spec.grantTable code pin offer (Spec.expectedPin options) with
        | none => evaluateAccessTokenRequest r offer options = .ok ()
        | some e => evaluateAccessTokenRequest r offer options = .err e)) := by
  obtain ⟨g⟩ := r
  refine ⟨?_, ?_⟩
  · rintro ⟨⟩; exact C04_authorization_code _ _
  · rintro code pin ⟨⟩
    refine ⟨?_, ?_⟩
    · rintro ⟨n, rfl, hn⟩
      obtain ⟨⟨m⟩, -, h⟩ := (C05_pin_length_partial code n offer options).2 hn
      exact ⟨m, h⟩
    · intro h
      rw [evaluate_pre_eq _ _ _ _ ((validate_ok_iff _ _).2 h)]
      cases Spec.grantTable code pin offer (Spec.expectedPin options) <;> rfl

/-- Non-vacuity: the rows of the table are reachable. -/
example : Spec.grantTable (str! "kode") none (some Ex.pinOffer) none
    = some (.invalidPreAuthorizedCodeFlowValues true false) := by decide +kernel
example : Spec.grantTable (str! "code") none (some Ex.pinOffer) none
    = some (.invalidPreAuthorizedCodeFlowValues true true) := by decide +kernel
example : Spec.grantTable (str! "code") (some 1) (some Ex.bothOffer) (some 2)
    = some (.invalidAuthorizedAndPreAuthorizedCodeFlow Spec.wrongGrant .userPinMismatch) := by
  decide +kernel

/-! ### C08 -/

/-- C08 in full. -/
def C08_statement : Prop := ∀ (code : Str) (pin pin' : UInt64) (o : CredentialOffer)
  (options : Option EvaluateAccessTokenRequestOptions),
  (∀ p, o.grants.preAuthorizedCodeFlow = some p → p.code ≠ code) →
  Spec.AtMostDigits 8 pin.toNat → Spec.AtMostDigits 8 pin'.toNat →
  evaluateAccessTokenRequest ⟨.preAuthorizedCodeFlow code (some pin)⟩ (some o) options
    = evaluateAccessTokenRequest ⟨.preAuthorizedCodeFlow code (some pin')⟩ (some o) options

/-- C08 is violated: the PIN is compared before the code, with a distinct error. -/
theorem C08_refuted : ¬ C08_statement := by
  intro h
  have h1 := h (str! "kode") 1234 1235 Ex.pinOffer (some ⟨some 1234⟩) (by decide +kernel)
    ((atMostDigits_iff _ _).2 (by decide)) ((atMostDigits_iff _ _).2 (by decide))
  exact absurd h1 (by decide +kernel)

/-- The oracle is complete: for every pre-authorized offer and every wrong code, the error tells
exactly whether the PIN is the expected one. -/
theorem C08_pin_oracle (code : Str) (pin expected : UInt64) (o : CredentialOffer)
    (p : PreAuthorizedCodeFlow) (hp : o.grants = ⟨none, some p⟩) (hne : p.code ≠ code)
    (hpin : Spec.AtMostDigits 9 pin.toNat) :
    evaluateAccessTokenRequest ⟨.preAuthorizedCodeFlow code (some pin)⟩ (some o)
      (some ⟨some expected⟩) = .err .userPinMismatch ↔ pin ≠ expected := by
  rw [evaluate_pre_eq _ _ _ _ ((validate_ok_iff _ _).2 (by rintro n ⟨⟩; exact hpin))]
  simp only [Spec.grantTable, hp, Spec.expectedPin, Spec.preTable]
  by_cases h : pin = expected <;> simp [Spec.firstRow, ofTable, h, hne]

/-- With a wrong code, the PIN 7 is told from the PIN 8. -/
example : evaluateAccessTokenRequest ⟨.preAuthorizedCodeFlow (str! "kode") (some 8)⟩ (some Ex.pinOffer)
      (some ⟨some 7⟩) = .err .userPinMismatch :=
  (C08_pin_oracle (str! "kode") 8 7 Ex.pinOffer _ rfl (by decide) (by rw [atMostDigits_iff]; decide)).2 (by decide)

/-- C08, partial: with a wrong code two PINs that are both wrong, or any two PINs when no PIN is
configured, give the same result. Missing: a right and a wrong PIN give the same result (false). -/
theorem C08_wrong_code_partial (code : Str) (pin pin' : UInt64) (o : CredentialOffer)
    (options : Option EvaluateAccessTokenRequestOptions)
    (hl : Spec.AtMostDigits 8 pin.toNat) (hl' : Spec.AtMostDigits 8 pin'.toNat)
    (hw : Spec.expectedPin options ≠ some pin) (hw' : Spec.expectedPin options ≠ some pin') :
    evaluateAccessTokenRequest ⟨.preAuthorizedCodeFlow code (some pin)⟩ (some o) options
      = evaluateAccessTokenRequest ⟨.preAuthorizedCodeFlow code (some pin')⟩ (some o) options := by
  rw [evaluate_pre_eq _ _ _ _ ((C05_pin_length_partial code pin none none).1 hl),
    evaluate_pre_eq _ _ _ _ ((C05_pin_length_partial code pin' none none).1 hl')]
  have key : ∀ p, Spec.preTable code (some pin) p (Spec.expectedPin options)
      = Spec.preTable code (some pin') p (Spec.expectedPin options) := by
    intro p
    unfold Spec.preTable
    cases h : Spec.expectedPin options with
    | none => simp [Spec.firstRow]
    | some e =>
      have h1 : pin ≠ e := fun he => hw (by rw [h, he])
      have h2 : pin' ≠ e := fun he => hw' (by rw [h, he])
      simp [Spec.firstRow, h1, h2]
  obtain ⟨ci, cs, ⟨a, p⟩⟩ := o
  rcases a with _ | a <;> rcases p with _ | p <;> simp [Spec.grantTable, key]

example : Spec.expectedPin (some ⟨some 1234⟩) ≠ some 1 ∧ Spec.expectedPin (some ⟨some 1234⟩) ≠ some 2 := by
  decide +kernel

/-! ### C52 -/

/-- The outcomes of a history of token requests against one offer: the function is called once per
request, in order, and has no state. -/
def tokenHistory (offer : CredentialOffer) (options : Option EvaluateAccessTokenRequestOptions)
    (rs : List AccessTokenRequest) : List (AccessTokenRequest × AccessTokenResult Unit) :=
  rs.map fun r => (r, evaluateAccessTokenRequest r (some offer) options)

/-- C52 in full: in any history, no two calls with the same code are accepted. -/
def C52_statement : Prop := ∀ (offer : CredentialOffer)
  (options : Option EvaluateAccessTokenRequestOptions) (rs : List AccessTokenRequest) (code : Str)
  (pin pin' : Option UInt64) (i j : Nat),
  (tokenHistory offer options rs)[i]? = some (⟨.preAuthorizedCodeFlow code pin⟩, .ok ()) →
  (tokenHistory offer options rs)[j]? = some (⟨.preAuthorizedCodeFlow code pin'⟩, .ok ()) → i = j

/-- Every accepted code can be redeemed any number of times. -/
theorem C52_replay (offer : CredentialOffer) (options : Option EvaluateAccessTokenRequestOptions)
    (r : AccessTokenRequest) (hok : evaluateAccessTokenRequest r (some offer) options = .ok ())
    (n : Nat) : ∀ q ∈ tokenHistory offer options (List.replicate n r), q = (r, .ok ()) := by
  intro q hq
  simp only [tokenHistory, List.map_replicate, hok] at hq
  exact List.eq_of_mem_replicate hq

example (n : Nat) : ∀ q ∈ tokenHistory Ex.pinOffer (some ⟨some 1⟩)
    (List.replicate n (Ex.tokenRequest (str! "code") (some 1))), q = (Ex.tokenRequest (str! "code") (some 1), .ok ()) :=
  C52_replay _ _ _ (by decide +kernel) n

/-- C52 is violated: two accepted requests with the same code. -/
theorem C52_refuted : ¬ C52_statement := by
  intro h
  exact absurd (h Ex.pinOffer (some ⟨some 1⟩)
    [Ex.tokenRequest (str! "code") (some 1), Ex.tokenRequest (str! "code") (some 1)] (str! "code")
    (some 1) (some 1) 0 1 (by decide +kernel) (by decide +kernel)) (by decide)

/-- C52, partial: in any history every accepted request carries the offer's code (so at most one
code is ever accepted). Missing: acceptance at most once (false, the evaluation keeps no state). -/
theorem C52_history_partial (offer : CredentialOffer)
    (options : Option EvaluateAccessTokenRequestOptions) (rs : List AccessTokenRequest) :
    ∀ q ∈ tokenHistory offer options rs, q.2 = .ok () → ∃ p pin,
      offer.grants.preAuthorizedCodeFlow = some p ∧
      q.1.grantType = .preAuthorizedCodeFlow p.code pin := by
  intro q hq hok
  simp only [tokenHistory, List.mem_map] at hq
  obtain ⟨r, -, rfl⟩ := hq
  replace hok : evaluateAccessTokenRequest r (some offer) options = .ok () := hok
  obtain ⟨code, pin, p, hg, hp, hc, -⟩ := (C01_accept_iff _ _ _).1 hok
  exact ⟨p, pin, hp, by rw [← hc]; exact hg⟩

example : (Ex.tokenRequest (str! "code") (some 1), (.ok () : AccessTokenResult Unit)) ∈
    tokenHistory Ex.pinOffer (some ⟨some 1⟩) [Ex.tokenRequest (str! "code") (some 1)] := by
  decide +kernel

end Oid4vci
