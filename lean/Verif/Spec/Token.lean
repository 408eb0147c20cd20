import Mathlib.Data.Nat.Digits.Defs
import Verif.Model.AccessToken

/-!
Specification of token request evaluation, written without the functions of the model
(it only mentions the data types).
-/

namespace Oid4vci.Spec

/-- `n` has at most `k` decimal digits. -/
def AtMostDigits (k n : Nat) : Prop := (Nat.digits 10 n).length ≤ k

/-- The PIN the issuer configured. -/
def expectedPin (options : Option EvaluateAccessTokenRequestOptions) : Option UInt64 :=
  match options with
  | some o => o.expectedUserPin
  | none => none

/-- The offer's pre-authorized grant. -/
def preGrant (offer : Option CredentialOffer) : Option PreAuthorizedCodeFlow :=
  match offer with
  | some o => o.grants.preAuthorizedCodeFlow
  | none => none

/-- The offer's authorized grant. -/
def authGrant (offer : Option CredentialOffer) : Option AuthorizedCodeFlow :=
  match offer with
  | some o => o.grants.authorizedCodeFlow
  | none => none

/-- Acceptance of a token request: right code, PIN present exactly if required, and a present PIN
has at most `k` digits and is the expected one. -/
def TokenAccepted (k : Nat) (r : AccessTokenRequest) (offer : Option CredentialOffer)
    (options : Option EvaluateAccessTokenRequestOptions) : Prop :=
  ∃ code pin p, r.grantType = .preAuthorizedCodeFlow code pin ∧ preGrant offer = some p ∧
    code = p.code ∧ (pin ≠ none ↔ p.userPinRequired = some true) ∧
    ∀ n, pin = some n → AtMostDigits k n.toNat ∧ expectedPin options = some n

/-- The first row of a decision table whose condition holds. -/
def firstRow {α : Type} : List (Bool × α) → α → α
  | [], d => d
  | (c, a) :: rows, d => if c then a else firstRow rows d

/-- Decision table for a request with the pre-authorized grant against a pre-authorized offer;
`none` is acceptance. -/
def preTable (code : Str) (pin : Option UInt64) (p : PreAuthorizedCodeFlow)
    (expected : Option UInt64) : Option AccessTokenError :=
  firstRow
    [(decide (pin ≠ none ∧ expected = none),
        some (.optionsAreRequiredForEvaluation
          (str! "user_pin was supplied in the access token request"))),
     (decide (pin ≠ none ∧ pin ≠ expected), some .userPinMismatch),
     (decide (p.code ≠ code),
        some (.invalidPreAuthorizedCodeFlowValues (decide (p.userPinRequired = some true)) false)),
     (decide (¬ (pin ≠ none ↔ p.userPinRequired = some true)),
        some (.invalidPreAuthorizedCodeFlowValues (decide (p.userPinRequired = some true)) true))]
    none

/-- The error for a pre-authorized request against an offer without that grant. -/
def wrongGrant : AccessTokenError :=
  .invalidGrantType (str! "pre_authorized_code_flow") [str! "authorized_code_flow"]

/-- Decision table for a request with the pre-authorized grant whose PIN passed the length check. -/
def grantTable (code : Str) (pin : Option UInt64) (offer : Option CredentialOffer)
    (expected : Option UInt64) : Option AccessTokenError :=
  match offer with
  | none => some .credentialOfferMustBeSupplied
  | some o =>
    match o.grants with
    | ⟨none, none⟩ => some .noFlowSupportedInCredentialOffer
    | ⟨some _, none⟩ => some wrongGrant
    | ⟨none, some p⟩ => preTable code pin p expected
    | ⟨some _, some p⟩ =>
      (preTable code pin p expected).map (.invalidAuthorizedAndPreAuthorizedCodeFlow wrongGrant)

end Oid4vci.Spec
