import Verif.Spec.History
import Verif.Spec.Reject
import Verif.Props.Evaluate
import Verif.Props.Panic
import Verif.Props.Token

/-! Several requests: C104 (what one proof is good for), C105 (replay of proofs), C106 (what a wrong PIN
tells about the code), C107 (which requests redeem an offer). -/

namespace Oid4vci

open Spec CredentialIssuer AccessToken

/-! ### C104 -/

/-- C104. Two accepted requests with the same proof text were evaluated for the same issuer and the same
nonce, and gave the same subject, algorithm, message and signature; expected clients, where configured, are the
same; from the same DID document they gave the same key. -/
theorem C104_one_use {x : Ext} (c c' : Call x) (r r' : CredentialIssuerEvaluateRequestResponse)
    (h : c.Gives r) (h' : c'.Gives r') (hp : c.proofText = c'.proofText) :
    c.metadata.credentialIssuer = c'.metadata.credentialIssuer ∧ c.nonce = c'.nonce ∧ c.nonce ≠ none ∧
    (∀ i i', c.client = some i → c'.client = some i' → i = i') ∧
    r.subjectId = r'.subjectId ∧ r.subjectId ≠ none ∧
    (∃ q q', r.proofOfPossession = some q ∧ r'.proofOfPossession = some q' ∧ q.algorithm = q'.algorithm ∧
      q.message = q'.message ∧ q.signature = q'.signature ∧ (c.document = c'.document → q = q')) := by
  obtain ⟨-, -, o, j, did, key, sig, msg, -, ⟨⟨p, hp1, hj⟩, -, ⟨n, hn, hn1, -⟩, ha, hi⟩,
    ⟨kid, url, d, vm, jwk, hk1, hk2, hk3, hk4, hk5, hk6, hk7⟩, hs, hm, rfl⟩ := (evaluate_ok_iff ..).1 h
  obtain ⟨-, -, o', j', did', key', sig', msg', -, ⟨⟨p', hp1', hj'⟩, -, ⟨n', hn', hn1', -⟩, ha', hi'⟩,
    ⟨kid', url', d', vm', jwk', hk1', hk2', hk3', hk4', hk5', hk6', hk7'⟩, hs', hm', rfl⟩ := (evaluate_ok_iff ..).1 h'
  have e : p.jwt = p'.jwt := by
    simp only [Call.proofText, hp1, hp1', Option.map_some, Option.some.injEq] at hp; exact hp
  rw [e, hj'] at hj
  cases hj
  rw [hs'] at hs; cases hs
  rw [hm'] at hm; cases hm
  rw [hk1'] at hk1; cases hk1
  rw [hk2'] at hk2; cases hk2
  refine ⟨ha.symm.trans ha', ?_, by simp [Call.nonce, hn], ?_, by rw [← hk3, ← hk3'], by simp, _, _, rfl, rfl, rfl,
    rfl, rfl, ?_⟩
  · simp only [Call.nonce, hn, hn', Option.map_some, ← hn1, ← hn1']
  · intro i i' hc hc'
    have h1 := hi (.inl (by rw [show clientId c.options = some i from hc]; simp))
    have h2 := hi' (.inl (by rw [show clientId c'.options = some i' from hc']; simp))
    rw [show clientId c.options = some i from hc] at h1
    rw [show clientId c'.options = some i' from hc', h1] at h2
    exact Option.some.inj h2
  · intro hd
    rw [hk4, hk4'] at hd
    cases hd
    rw [hk5'] at hk5; cases hk5
    rw [hk6'] at hk6; cases hk6
    have : key = key' := by
      rcases hk7 with h | ⟨h, -⟩ <;> rcases hk7' with h' | ⟨h', -⟩ <;> rw [h] at h' <;> cases h' <;> rfl
    rw [this]

/-- Two calls of the example, with other instants and offers. -/
theorem Ex.two_calls : ∃ c c' : Call Ex.ext, c ≠ c' ∧ c.Accepted ∧ c'.Accepted ∧ c.proofText = c'.proofText ∧
    c.nonce = some (str! "nonce") :=
  ⟨⟨1000, Ex.metadata, Ex.request, some Ex.pinOffer, none, some Ex.didDoc, Ex.options⟩,
    ⟨2000, Ex.metadata, Ex.request, some Ex.pinOffer, none, some Ex.didDoc, Ex.options⟩,
    fun h => absurd (congrArg Call.now h) (by decide), Ex.evaluates, by
      unfold Call.Accepted Call.Gives
      rw [C51_time_independent Ex.ext 2000 _ _ _ _ _ _ 1000 _ rfl (by decide +kernel) (by decide +kernel)]
      exact Ex.evaluates, rfl, by decide +kernel⟩

/-! ### C105 -/

/-- C105, full statement: in any history of calls no two accepted ones have the same proof. -/
def C105_statement : Prop := ∀ (x : Ext) (calls : List (Call x)),
  calls.Pairwise fun c c' => c.Accepted → c'.Accepted → c.proofText ≠ c'.proofText

/-- An accepted call is accepted again, whenever it is repeated in the lifetime of the nonce. -/
theorem C105_replay {x : Ext} (c : Call x) (h : c.Accepted) :
    ∃ n, nonceOptions c.options = some n ∧ ∀ t, t ≤ nonceExpiry n → ({ c with now := t } : Call x).Accepted := by
  obtain ⟨hm, ha, o, j, did, key, ho, ⟨h1, h2, ⟨n, hn, hn1, hn2, hn3⟩, h4, h5⟩, hk, hs⟩ := (C22_accept_iff ..).1 h
  exact ⟨n, hn, fun t ht => (C22_accept_iff ..).2
    ⟨hm, ha, o, j, did, key, ho, ⟨h1, h2, ⟨n, hn, hn1, ht, hn3⟩, h4, h5⟩, hk, hs⟩⟩

/-- C105 is violated. -/
theorem C105_refuted : ¬ C105_statement := by
  intro h
  obtain ⟨c, c', -, hc, hc', hp, -⟩ := Ex.two_calls
  exact (List.pairwise_cons.1 (h Ex.ext [c, c'])).1 c' (by simp) hc hc' hp

/-- C105, partial: if the issuer expects another nonce in each call, no proof is accepted twice, neither as a text
nor as a JWT. Missing: calls with the same expected nonce (false for all of them, `C105_replay`). -/
theorem C105_fresh_nonces_partial {x : Ext} (calls : List (Call x))
    (hn : calls.Pairwise fun c c' => c.nonce ≠ c'.nonce) :
    calls.Pairwise fun c c' => c.Accepted → c'.Accepted → c.proofText ≠ c'.proofText ∧
      ∀ j j', Carries x c.request j → Carries x c'.request j' → j.body.nonce ≠ j'.body.nonce := by
  refine hn.imp fun {c c'} hne hc hc' => ⟨fun hp => ?_, ?_⟩
  · obtain ⟨r, hr⟩ := hc
    obtain ⟨r', hr'⟩ := hc'
    exact hne (C104_one_use c c' r r' hr hr' hp).2.1
  · rintro j j' ⟨p, hp, hj⟩ ⟨p', hp', hj'⟩ he
    obtain ⟨r, hr⟩ := hc
    obtain ⟨r', hr'⟩ := hc'
    obtain ⟨-, -, -, q, k, n, hq, hk, -, hn, hn1, -⟩ := C22_bound x _ _ _ _ _ _ _ r hr
    obtain ⟨-, -, -, q', k', n', hq', hk', -, hn', hn1', -⟩ := C22_bound x _ _ _ _ _ _ _ r' hr'
    rw [hp] at hq; cases hq
    rw [hj] at hk; cases hk
    rw [hp'] at hq'; cases hq'
    rw [hj'] at hk'; cases hk'
    apply hne
    simp only [Call.nonce, hn, hn', Option.map_some, ← hn1, ← hn1', he]

/-- A history with the example's call, followed by calls that expect other nonces: it is accepted once. -/
example : ∃ c c' : Call Ex.ext, c.Accepted ∧ c.proofText = c'.proofText ∧
    ([c, c'].Pairwise fun c c' => c.nonce ≠ c'.nonce) ∧ ¬ c'.Accepted := by
  let c : Call Ex.ext := ⟨1000, Ex.metadata, Ex.request, some Ex.pinOffer, none, some Ex.didDoc, Ex.options⟩
  let c' : Call Ex.ext := { c with options := some ⟨some ⟨100, str! "next", 0⟩, none⟩ }
  have hn : [c, c'].Pairwise fun c c' => c.nonce ≠ c'.nonce := by
    rw [List.pairwise_cons]
    exact ⟨by rintro d (_ | ⟨_, _ | _⟩); decide +kernel, List.pairwise_singleton _ _⟩
  exact ⟨c, c', Ex.evaluates, rfl, hn, fun h =>
    ((List.pairwise_cons.1 (C105_fresh_nonces_partial _ hn)).1 c' (by simp) Ex.evaluates h).1 rfl⟩

/-! ### C106 -/

/-- The offer with another pre-authorized code. -/
def Spec.withCode (o : CredentialOffer) (code : Str) : CredentialOffer :=
  { o with grants := { o.grants with
      preAuthorizedCodeFlow := o.grants.preAuthorizedCodeFlow.map fun p => { p with code := code } } }

/-- C106. With a wrong PIN the outcome depends neither on the code that is sent nor on the code of the offer. -/
theorem C106_wrong_pin (code code' secret : Str) (pin : UInt64) (o : CredentialOffer)
    (options : Option EvaluateAccessTokenRequestOptions) (h : expectedPin options ≠ some pin) :
    evaluateAccessTokenRequest ⟨.preAuthorizedCodeFlow code (some pin)⟩ (some o) options =
      evaluateAccessTokenRequest ⟨.preAuthorizedCodeFlow code' (some pin)⟩ (some (withCode o secret)) options := by
  rcases validate_cases (.preAuthorizedCodeFlow code (some pin)) with hv | ⟨e, hv⟩
  · have hv' : (GrantType.preAuthorizedCodeFlow code' (some pin)).validate = .ok () :=
      (validate_ok_iff _ _).2 ((validate_ok_iff _ _).1 hv)
    rw [evaluate_pre_eq _ _ _ _ hv, evaluate_pre_eq _ _ _ _ hv']
    have key : ∀ p : PreAuthorizedCodeFlow, preTable code (some pin) p (expectedPin options)
        = preTable code' (some pin) { p with code := secret } (expectedPin options) := by
      intro p
      unfold preTable
      cases he : expectedPin options with
      | none => simp [firstRow]
      | some e => rw [he] at h; simp [firstRow, Ne.symm (fun e' => h (congrArg some e'))]
    obtain ⟨ci, cs, ⟨a, p⟩⟩ := o
    rcases a with _ | a <;> rcases p with _ | p <;> simp [grantTable, withCode, key]
  · have hv' : (GrantType.preAuthorizedCodeFlow code' (some pin)).validate = .err e := by
      simpa [GrantType.validate] using hv
    rw [evaluate_invalid _ _ _ _ hv, evaluate_invalid _ _ _ _ hv']

example : expectedPin (some ⟨some 1234⟩) ≠ some 1 := by decide
/-- With the right PIN it depends on the code. -/
example : evaluateAccessTokenRequest (Ex.tokenRequest (str! "code") (some 7)) (some Ex.pinOffer) (some ⟨some 7⟩) ≠
    evaluateAccessTokenRequest (Ex.tokenRequest (str! "kode") (some 7)) (some Ex.pinOffer) (some ⟨some 7⟩) := by
  decide +kernel

/-! ### C107 -/

/-- C107. Against an offer at most one token request is accepted. -/
theorem C107_unique (r r' : AccessTokenRequest) (offer : Option CredentialOffer)
    (options : Option EvaluateAccessTokenRequestOptions)
    (h : evaluateAccessTokenRequest r offer options = .ok ())
    (h' : evaluateAccessTokenRequest r' offer options = .ok ()) : r = r' := by
  obtain ⟨code, pin, p, hg, hp, hc, hpin, hall⟩ := (C01_accept_iff _ _ _).1 h
  obtain ⟨code', pin', p', hg', hp', hc', hpin', hall'⟩ := (C01_accept_iff _ _ _).1 h'
  rw [hp] at hp'
  cases hp'
  have e : pin = pin' := by
    cases hq : pin with
    | none =>
      cases hq' : pin' with
      | none => rfl
      | some n => exact absurd hq (hpin.2 (hpin'.1 (by simp [hq'])))
    | some n =>
      obtain ⟨n', hn'⟩ := Option.ne_none_iff_exists'.1 (hpin'.2 (hpin.1 (by simp [hq])))
      rw [hn', ← (hall n hq).2, (hall' n' hn').2]
  obtain ⟨g⟩ := r
  obtain ⟨g'⟩ := r'
  simp only at hg hg'
  rw [hg, hg', hc, hc', e]

/-- C107. The offer can be redeemed exactly if it has the pre-authorized grant and, where a PIN is required,
one of at most nine digits is configured. -/
theorem C107_redeemable (offer : Option CredentialOffer) (options : Option EvaluateAccessTokenRequestOptions) :
    (∃ r, evaluateAccessTokenRequest r offer options = .ok ()) ↔
      ∃ p, preGrant offer = some p ∧ (p.userPinRequired = some true →
        ∃ n, expectedPin options = some n ∧ AtMostDigits 9 n.toNat) := by
  constructor
  · rintro ⟨r, h⟩
    obtain ⟨code, pin, p, -, hp, -, hpin, hall⟩ := (C01_accept_iff _ _ _).1 h
    refine ⟨p, hp, fun hr => ?_⟩
    obtain ⟨n, hn⟩ := Option.ne_none_iff_exists'.1 (hpin.2 hr)
    exact ⟨n, (hall n hn).2, (hall n hn).1⟩
  · rintro ⟨p, hp, hr⟩
    by_cases hq : p.userPinRequired = some true
    · obtain ⟨n, hn, hd⟩ := hr hq
      exact ⟨⟨.preAuthorizedCodeFlow p.code (some n)⟩, (C01_accept_iff _ _ _).2
        ⟨_, _, p, rfl, hp, rfl, by simp [hq], by rintro m ⟨⟩; exact ⟨hd, hn⟩⟩⟩
    · exact ⟨⟨.preAuthorizedCodeFlow p.code none⟩, (C01_accept_iff _ _ _).2
        ⟨_, _, p, rfl, hp, rfl, by simp [hq], by simp⟩⟩

/-- The one request for the example's offer, and an offer nobody can redeem. -/
example (r : AccessTokenRequest) (h : evaluateAccessTokenRequest r (some Ex.pinOffer) (some ⟨some 7⟩) = .ok ()) :
    r = Ex.tokenRequest (str! "code") (some 7) := C107_unique _ _ _ _ h (by decide +kernel)
example : ¬ ∃ r, evaluateAccessTokenRequest r (some Ex.pinOffer) none = .ok () := by
  rw [C107_redeemable]
  rintro ⟨p, hp, hr⟩
  cases hp
  obtain ⟨n, hn, -⟩ := hr rfl
  cases hn

end Oid4vci
