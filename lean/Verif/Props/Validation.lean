import Verif.Spec.Validation
import Verif.Props.Response
import Verif.Props.Jwt
import Verif.Props.Offer
import Verif.Props.Token

/-! C103: the messages of failed validations. -/

namespace Oid4vci

open Spec

theorem refuses_ite {α : Type} {c : Prop} [Decidable c] (bad : Prop) (h : c ↔ bad) (msg : Str) (a : α) :
    Refuses bad msg (if c then .err (.any msg) else .ok a) := by
  by_cases hc : c
  · have := h.1 hc
    simp [Refuses, hc, this, eq_comm]
  · have := mt h.2 hc
    simp [Refuses, hc, this]

/-- C103. Metadata is refused for repeated ids, and for nothing else. -/
theorem C103_metadata (m : CredentialIssuerMetadata) :
    Refuses (¬ DistinctIds m.credentialsSupported)
      (str! "Ids in supported credentials of the issuer metadata are not unique") m.validate := by
  have h := metadata_validate_iff m
  by_cases hd : DistinctIds m.credentialsSupported
  · simp [Refuses, h.2 hd, hd]
  · have h1 : m.validate ≠ .ok () := fun hc => hd (h.1 hc)
    have h2 : m.validate = .err (.any (str! "Ids in supported credentials of the issuer metadata are not unique")) := by
      unfold CredentialIssuerMetadata.validate at h1 ⊢
      split
      · rfl
      · rename_i hu
        rw [if_neg hu] at h1
        exact absurd (validateAll_ok _ CredentialSupported.validate_ok _) h1
    simp [Refuses, h2, hd, eq_comm]

/-- C103. A token response is refused for a lifetime without a nonce. -/
theorem C103_token_response (r : AccessTokenSuccessResponse) :
    Refuses (r.cNonce = none ∧ r.cNonceExpiresIn ≠ none)
      (str! "c_nonce_expires_in is provided, but c_nonce is not") r.validate := by
  apply refuses_ite
  rw [Bool.and_eq_true, Option.isNone_iff_eq_none, Option.isSome_iff_ne_none]

/-- C103. A proof header is refused for its `typ`. -/
theorem C103_header (j : ProofJwt) :
    Refuses (¬ EqFold j.header.typ proofTyp)
      (str! "jwt header `typ` MUST of of value `openid4vci-proof+jwt`") j.validate ∧
    j.header.validate = j.validate := by
  have h : j.header.validate = j.validate := by
    unfold ProofJwt.validate
    cases hv : j.header.validate <;> rfl
  refine ⟨?_, h⟩
  rw [← h]
  apply refuses_ite
  rw [← lowercase_eq_iff]
  rfl

/-- C103. Of the three ways of giving a key, two are refused. -/
theorem C103_key (k : Str) :
    Passes (ProofJwtAdditionalHeader.keyId k).validate ∧
    Refuses True (str! "JWK is not supported as key type in the JWT header")
      (ProofJwtAdditionalHeader.jwk k).validate ∧
    Refuses True (str! "X5c is not supported as key type in the JWT header")
      (ProofJwtAdditionalHeader.x5c k).validate := by
  refine ⟨rfl, ?_, ?_⟩ <;> simp [Refuses, ProofJwtAdditionalHeader.validate, eq_comm]

/-- C103. The codes of error responses and the token type. -/
theorem C103_codes (s : Str) :
    Refuses (∀ c, (c, s) ∉ accessTokenCodes) (str! "Invalid access token error code")
      (AccessTokenErrorCode.tryFrom s) ∧
    Refuses (∀ c, (c, s) ∉ credentialCodes) (str! "Invalid error code: " ++ s)
      (CredentialIssuerErrorCode.tryFrom s) ∧
    Refuses (s ≠ str! "Bearer") (str! "Invalid access token type") (AccessTokenType.tryFrom s) := by
  refine ⟨?_, ?_, ?_⟩
  · have h : ∀ c, AccessTokenErrorCode.tryFrom s = .ok c ↔ (c, s) ∈ accessTokenCodes := fun c =>
      (C39_access_token c s).2.1
    simp only [← h]
    unfold AccessTokenErrorCode.tryFrom
    split_ifs <;> simp [Refuses, eq_comm]
  · have h : ∀ c, CredentialIssuerErrorCode.tryFrom s = .ok c ↔ (c, s) ∈ credentialCodes := fun c =>
      (C39_credential c s).2.1
    simp only [← h]
    unfold CredentialIssuerErrorCode.tryFrom
    split_ifs <;> simp [Refuses, eq_comm]
  · unfold AccessTokenType.tryFrom
    split_ifs with h <;> simp [Refuses, h, eq_comm]

/-- C103. A text without a dot is no JWT, for want of a body. -/
theorem C103_body (x : Ext) (s : Str) (h : '.' ∉ s) :
    ProofJwt.fromStr x s = .err (.any (str! "No body found in the `JWT`")) := by
  rw [ProofJwt.fromStr, splitOn_not_mem h]

example : ProofJwt.fromStr Ex.ext (str! "e30") = .err (.any (str! "No body found in the `JWT`")) :=
  C103_body _ _ (by decide)

/-- C103. The proof of a request is refused for its type, or else for its JWT. -/
theorem C103_proof (x : Ext) (p : CredentialRequestProof) (e : ValidationError) :
    p.validate x = .err e ↔
      (¬ EqFold p.proofType (str! "JWT") ∧ e = .any (str! "`proof_type` MUST of of value `JWT`")) ∨
      (EqFold p.proofType (str! "JWT") ∧ (ProofJwt.fromStr x p.jwt = .err e ∨
        ∃ j, ProofJwt.fromStr x p.jwt = .ok j ∧ ¬ EqFold j.header.typ proofTyp ∧
          e = .any (str! "jwt header `typ` MUST of of value `openid4vci-proof+jwt`"))) := by
  have ht : toUppercase p.proofType = jwtProofType ↔ EqFold p.proofType (str! "JWT") := uppercase_eq_iff _
  unfold CredentialRequestProof.validate
  by_cases h : EqFold p.proofType (str! "JWT")
  · rw [if_neg (by rw [Ne, ht]; simpa using h)]
    cases hj : ProofJwt.fromStr x p.jwt with
    | panic => simp [h]
    | err e' => simp [h]
    | ok j =>
      have hv := (C103_header j).1.1
      have hp := (C103_header j).1.2
      cases hjv : j.validate with
      | panic => exact absurd hjv hp
      | err e' =>
        obtain ⟨h1, h2⟩ := (hv e').1 hjv
        simp [hjv, h, h1, h2, eq_comm]
      | ok u =>
        have h1 : EqFold j.header.typ proofTyp := by
          by_contra hc
          have := (hv _).2 ⟨hc, rfl⟩
          rw [hjv] at this
          cases this
        simp [hjv, h, h1]
  · rw [if_pos (by rw [Ne, ht]; exact h)]
    simp [h, eq_comm]

/-- C103. A request is refused for its proof, and only if it has one. -/
theorem C103_request (x : Ext) (r : CredentialRequest) (e : ValidationError) :
    r.validate x = .err e ↔ ∃ p, r.proof = some p ∧ p.validate x = .err e := by
  unfold CredentialRequest.validate
  cases r.proof with
  | none => simp
  | some p =>
    simp only [Option.some.injEq, exists_eq_left']
    cases p.validate x <;> simp

/-- C103. Other values are never refused. -/
theorem C103_never (o : CredentialOffer) (b : ProofJwtBody) (c : CredentialFormatProfile) (s : CredentialSupported)
    (d : DisplayProperties) (l : DisplayLogo) (a : AuthorizationServerMetadata) :
    Passes o.validate ∧ Passes b.validate ∧ Passes c.validate ∧ Passes s.validate ∧ Passes d.validate ∧
    Passes l.validate ∧ Passes a.validate ∧ Passes GrantType.authorizedCodeFlow.validate ∧
    ∀ code, Passes (GrantType.preAuthorizedCodeFlow code none).validate :=
  ⟨rfl, rfl, rfl, CredentialSupported.validate_ok s, DisplayProperties.validate_ok d, rfl, rfl, rfl, fun _ => rfl⟩

/-- C103. The message about a PIN that is too long names the number of its digits. -/
def C103_statement : Prop := ∀ (code : Str) (pin : UInt64) (k : Nat) (e : ValidationError),
  HasDigits k pin.toNat → (GrantType.preAuthorizedCodeFlow code (some pin)).validate = .err e →
    e = .any (pinMessage 8 k)

/-- C103. It names one less. -/
theorem C103_pin_partial (code : Str) (pin : UInt64) (k : Nat) (h : HasDigits k pin.toNat) :
    Refuses (10 ≤ k) (pinMessage 8 (k - 1)) (GrantType.preAuthorizedCodeFlow code (some pin)).validate := by
  have hk : ∀ n, k ≤ n ↔ pin.toNat < 10 ^ n := fun n => by rw [← h]; exact Nat.digits_length_le_iff (by decide) _
  have hl := checkedIlog10_le_iff pin
  have h20 : k ≤ 20 := (hk 20).2 (lt_of_lt_of_le pin.toNat_lt (by decide))
  simp only [GrantType.validate]
  generalize (checkedIlog10 pin).getD 0 = l at hl
  have hl' : ∀ n, l ≤ n ↔ k ≤ n + 1 := fun n => by rw [hl, hk]
  by_cases h10 : 10 ≤ k
  · have hlk : l = k - 1 := le_antisymm ((hl' _).2 (by omega)) (by have := (hl' l).1 (le_refl _); omega)
    subst hlk
    rw [if_pos (by omega)]
    have hm : ∀ n, n ≤ 20 → Json.natDigits n = Nat.toDigits 10 n := by decide
    have : (str! "user pin exeeded length. Maximum is " ++ Json.natDigits 8 ++ str! ", supplied is " ++
        Json.natDigits (k - 1)) = pinMessage 8 (k - 1) := by
      rw [hm (k - 1) (by omega), hm 8 (by omega)]; rfl
    rw [this]
    simp [Refuses, h10, eq_comm]
  · have : ¬ l > 8 := by
      have := (hl' 8).2 (by omega)
      omega
    rw [if_neg this]
    simp [Refuses, h10]

/-- The PIN 1234567890 is said to have 9 digits. -/
theorem C103_refuted : ¬ C103_statement := by
  intro h
  have hd : HasDigits 10 (1234567890 : UInt64).toNat := by
    rw [show (1234567890 : UInt64).toNat = 1234567890 from rfl, HasDigits]; norm_num
  have h1 := ((C103_pin_partial [] 1234567890 10 hd).1 _).2 ⟨le_refl _, rfl⟩
  have h2 := h _ _ _ _ hd h1
  simp only [ValidationError.any.injEq] at h2
  exact absurd h2 (by decide)

/-- C103. So it never names the number of digits. -/
theorem C103_never_named (code : Str) (pin : UInt64) (k : Nat) (e : ValidationError) (h : HasDigits k pin.toNat) :
    (GrantType.preAuthorizedCodeFlow code (some pin)).validate = .err e → e ≠ .any (pinMessage 8 k) := by
  rintro he rfl
  obtain ⟨h1, h2⟩ := ((C103_pin_partial code pin k h).1 _).1 he
  have h20 : k ≤ 20 := by
    rw [← h]
    exact (Nat.digits_length_le_iff (by decide) _).2 (lt_of_lt_of_le pin.toNat_lt (by decide))
  have : ∀ k ≤ 20, 10 ≤ k → pinMessage 8 k ≠ pinMessage 8 (k - 1) := by decide
  simp only [ValidationError.any.injEq] at h2
  exact this k h20 h1 h2

end Oid4vci

namespace Oid4vci.Ex
open Spec

example : (GrantType.preAuthorizedCodeFlow [] (some 12345678901)).validate =
    .err (.any (str! "user pin exeeded length. Maximum is 8, supplied is 10")) := by decide +kernel
example : (AccessTokenSuccessResponse.mk [] .bearer none none none (some 1) none none).validate =
    .err (.any (str! "c_nonce_expires_in is provided, but c_nonce is not")) := by decide

end Oid4vci.Ex
