import Mathlib.Data.Nat.Digits.Lemmas
import Verif.Spec.Token

/-! Lemmas about token request evaluation. -/

namespace Oid4vci

theorem ilog10Aux_le_iff (fuel n k : Nat) (hf : n < 10 ^ fuel) :
    ilog10Aux fuel n ≤ k ↔ n < 10 ^ (k + 1) := by
  induction fuel generalizing n k with
  | zero =>
    have h0 : n = 0 := by simpa using hf
    subst h0
    simp [ilog10Aux]
  | succ fuel ih =>
    rw [ilog10Aux]
    split
    · rename_i h
      have : 10 ^ 1 ≤ 10 ^ (k + 1) := Nat.pow_le_pow_right (by decide) (by omega)
      constructor
      · intro _; omega
      · intro _; omega
    · rename_i h
      cases k with
      | zero => constructor <;> intro _ <;> omega
      | succ k =>
        have hd : n / 10 < 10 ^ fuel := by
          rw [Nat.div_lt_iff_lt_mul (by decide)]; rwa [Nat.pow_succ] at hf
        rw [Nat.add_le_add_iff_right, ih _ _ hd, Nat.div_lt_iff_lt_mul (by decide), ← Nat.pow_succ]

theorem checkedIlog10_le_iff (n : UInt64) (k : Nat) :
    (checkedIlog10 n).getD 0 ≤ k ↔ n.toNat < 10 ^ (k + 1) := by
  unfold checkedIlog10
  split
  · rename_i h; subst h; simp
  · simp only [Option.getD_some]
    exact ilog10Aux_le_iff _ _ _ (lt_of_lt_of_le n.toNat_lt (by decide))

theorem atMostDigits_iff (k n : Nat) : Spec.AtMostDigits k n ↔ n < 10 ^ k :=
  Nat.digits_length_le_iff (by decide) n

/-- The length check accepts exactly the PINs below 10^9. -/
theorem validate_ok_iff (code : Str) (pin : Option UInt64) :
    (GrantType.preAuthorizedCodeFlow code pin).validate = .ok ()
      ↔ ∀ n, pin = some n → Spec.AtMostDigits 9 n.toNat := by
  cases pin with
  | none => simp [GrantType.validate]
  | some n =>
    have h := checkedIlog10_le_iff n 8
    simp only [GrantType.validate]
    split
    · rename_i hgt
      simp only [reduceCtorEq, Option.some.injEq, forall_eq', atMostDigits_iff, false_iff]
      omega
    · simp only [Option.some.injEq, forall_eq', atMostDigits_iff, true_iff]
      omega

/-- If the length check fails, it fails with a validation error. -/
theorem validate_cases (g : GrantType) : g.validate = .ok () ∨ ∃ e, g.validate = .err e := by
  cases g with
  | authorizedCodeFlow => exact .inl rfl
  | preAuthorizedCodeFlow c p =>
    cases p with
    | none => exact .inl rfl
    | some n =>
      simp only [GrantType.validate]
      split
      · exact .inr ⟨_, rfl⟩
      · exact .inl rfl

/-- Acceptance or rejection as a `Res`. -/
def ofTable : Option AccessTokenError → AccessTokenResult Unit
  | none => .ok ()
  | some e => .err e

theorem preCheck_eq (options : Option EvaluateAccessTokenRequestOptions) (p : PreAuthorizedCodeFlow)
    (code : Str) (pin : Option UInt64) :
    AccessToken.validatePreAuthorizedCodeFlow options p (.preAuthorizedCodeFlow code pin)
      = ofTable (Spec.preTable code pin p (Spec.expectedPin options)) := by
  have hexp : options.bind (·.expectedUserPin) = Spec.expectedPin options := by
    cases options <;> rfl
  obtain ⟨pc, preq⟩ := p
  simp only [AccessToken.validatePreAuthorizedCodeFlow, hexp, Spec.preTable]
  generalize Spec.expectedPin options = ex
  rcases pin with _ | n
  · by_cases hc : pc = code <;> rcases preq with _ | _ | _ <;> simp [Spec.firstRow, ofTable, hc]
  · rcases ex with _ | m
    · simp [Spec.firstRow, ofTable]
    · by_cases hn : n = m <;> by_cases hc : pc = code <;> rcases preq with _ | _ | _ <;>
        simp [Spec.firstRow, ofTable, hc, hn]

theorem evaluate_pre_eq (code : Str) (pin : Option UInt64) (offer : Option CredentialOffer)
    (options : Option EvaluateAccessTokenRequestOptions)
    (hv : (GrantType.preAuthorizedCodeFlow code pin).validate = .ok ()) :
    AccessToken.evaluateAccessTokenRequest ⟨.preAuthorizedCodeFlow code pin⟩ offer options
      = ofTable (Spec.grantTable code pin offer (Spec.expectedPin options)) := by
  simp only [AccessToken.evaluateAccessTokenRequest, AccessTokenRequest.validate, hv]
  rcases offer with _ | ⟨ci, cs, ⟨a, p⟩⟩
  · simp [Spec.grantTable, ofTable]
  · rcases a with _ | a <;> rcases p with _ | p
    · simp [Spec.grantTable, ofTable]
    · simp [Spec.grantTable, preCheck_eq]
    · simp [Spec.grantTable, ofTable, AccessToken.validateAuthorizedCodeFlow, Spec.wrongGrant]
    · simp only [Spec.grantTable, preCheck_eq]
      cases h : Spec.preTable code pin p (Spec.expectedPin options) <;>
        simp [ofTable, AccessToken.validateAuthorizedCodeFlow, Spec.wrongGrant]

theorem evaluate_invalid (g : GrantType) (offer : Option CredentialOffer)
    (options : Option EvaluateAccessTokenRequestOptions) (e : ValidationError)
    (hv : g.validate = .err e) :
    AccessToken.evaluateAccessTokenRequest ⟨g⟩ offer options = .err (.validationError e) := by
  simp [AccessToken.evaluateAccessTokenRequest, AccessTokenRequest.validate, hv]

theorem preTable_none_iff (code : Str) (pin : Option UInt64) (p : PreAuthorizedCodeFlow)
    (ex : Option UInt64) :
    Spec.preTable code pin p ex = none ↔ code = p.code ∧
      (pin ≠ none ↔ p.userPinRequired = some true) ∧ ∀ n, pin = some n → ex = some n := by
  obtain ⟨pc, preq⟩ := p
  unfold Spec.preTable
  by_cases hc : code = pc
  · subst hc
    rcases pin with _ | n <;> rcases ex with _ | m <;> rcases preq with _ | _ | _ <;>
      simp [Spec.firstRow] <;> (try split) <;> simp [eq_comm]
  · have hc' : ¬ pc = code := fun h => hc h.symm
    rcases pin with _ | n <;> rcases ex with _ | m <;> simp [Spec.firstRow, hc, hc']
    split <;> simp

end Oid4vci
