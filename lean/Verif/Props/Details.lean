import Verif.Spec.Details
import Verif.Spec.Messages
import Verif.Props.Report
import Verif.Props.Written

/-! The details of the errors. -/

namespace Oid4vci

open Serde
open Spec hiding value

/-! ### Objects as values -/

theorem described_one {k : Str} {v : Json} {p : Json → Prop} (h : p (value v)) :
    Described [(k, p)] (value (.obj [(k, v)])) :=
  ⟨[(k, value v)], value_one k v, by simp, by simp, by simpa using h⟩

theorem described_two {k l : Str} {v w : Json} {p q : Json → Prop} (hkl : k ≠ l) (hp : p (value v))
    (hq : q (value w)) : Described [(k, p), (l, q)] (value (.obj [(k, v), (l, w)])) := by
  rw [value_two _ _ _ _ hkl]
  by_cases h : strLt l k = true
  · refine ⟨[(l, value w), (k, value v)], by rw [if_pos h], ?_, ?_, ?_⟩
    · simpa using (strLt_iff _ _).1 h
    · intro a; simp [or_comm]
    · intro f hf w' hw'
      simp only [List.mem_cons, List.not_mem_nil, or_false, Prod.mk.injEq] at hf hw'
      rcases hf with rfl | rfl <;> rcases hw' with ⟨ha, rfl⟩ | ⟨ha, rfl⟩ <;> first | assumption | simp_all
  · refine ⟨[(k, value v), (l, value w)], by rw [if_neg h], ?_, ?_, ?_⟩
    · have hlt : ¬ l < k := fun hlt => h ((strLt_iff _ _).2 hlt)
      have : k < l := (List.le_iff_lt_or_eq.1 (List.not_lt.1 hlt)).resolve_right hkl
      simpa using this
    · intro a; simp
    · intro f hf w' hw'
      simp only [List.mem_cons, List.not_mem_nil, or_false, Prod.mk.injEq] at hf hw'
      rcases hf with rfl | rfl <;> rcases hw' with ⟨ha, rfl⟩ | ⟨ha, rfl⟩ <;> first | assumption | simp_all

theorem described_optText (o : Option Str) : orNullOf IsText o (value (serOpt .str o)) := by
  cases o <;> rfl

theorem described_bytes (o : Option Bytes) : orNullOf IsBytes o (value (serOpt serBytes o)) := by
  rw [value_bytes]
  cases o with
  | none => rfl
  | some b => exact isBytes_ser b

theorem described_texts (a : List Str) : ListOf IsText (value (serVec .str a)) a := by
  rw [value_serVec (fun _ => rfl)]
  exact ⟨_, rfl, by simp [List.forall₂_map_left_iff, IsText, List.forall₂_same]⟩

/-- C101: the details of a failed validation. -/
theorem C101_validation (e : ValidationError) : ValidationDetails e (value e.ser) := by
  cases e; exact described_one rfl

/-- C101: the details of an error of a JWT. -/
theorem C101_jwt (x : Ext) (e : JwtError) : JwtDetails x e (value (e.ser x)) := by
  cases e with
  | validationError e => exact C101_validation e
  | noKeyFoundInProof => rfl
  | noDidDocumentProvidedForKidAsDid => rfl
  | edDSAHasNoXCoordinate => rfl
  | notYetValid f n => exact described_two (by decide) rfl rfl
  | notValidAnymore f n => exact described_two (by decide) rfl rfl
  | issuerMismatch a b => exact described_two (by decide) (described_optText a) (described_optText b)
  | unableToTransformIntoDid f n => exact described_two (by decide) rfl rfl
  | unableToResolveDidInDidDocument f n => exact described_two (by decide) rfl rfl
  | unableToMapVerificationMethodToJwk m => exact described_one rfl
  | unableToTransformIntoJoseItem f n => exact described_two (by decide) rfl rfl
  | unsupportedAlgorithm a => exact described_one rfl
  | eSXXXHasNoXOrYCoordinate a px py =>
    refine ⟨[(str! "algorithm", .str a), (str! "x", value (serOpt serBytes px)),
      (str! "y", value (serOpt serBytes py))], rfl, ?_, fun _ => Iff.rfl, ?_⟩
    · show [str! "algorithm", str! "x", str! "y"].Pairwise (· < ·)
      decide
    have h := described_bytes px
    have h' := described_bytes py
    intro f hf w hw
    simp only [List.mem_cons, List.not_mem_nil, or_false, Prod.mk.injEq] at hf hw
    rcases hf with rfl | rfl | rfl <;> rcases hw with ⟨ha, rfl⟩ | ⟨ha, rfl⟩ | ⟨ha, rfl⟩ <;>
      first | exact h | exact h' | rfl | simp at ha
  | signatureNotInJwt j => exact described_one rfl
  | unsupportedKeyTypeInJwtHeader f n => exact described_two (by decide) rfl rfl
  | nonceMismatch a b => exact described_two (by decide) (described_optText a) rfl
  | audienceMismatch f n => exact described_two (by decide) rfl rfl

/-- C101: the details of an error of the token endpoint; those of a request that fails both flows
hold the details of both errors. -/
theorem C101_token (e : AccessTokenError) : TokenDetails e (value e.ser) := by
  induction e with
  | validationError e => exact C101_validation e
  | invalidGrantType r a => exact described_two (by decide) rfl (described_texts a)
  | authorizedFlowNotSupported => rfl
  | noFlowSupportedInCredentialOffer => rfl
  | invalidPreAuthorizedCodeFlowValues p c => exact described_two (by decide) rfl rfl
  | invalidAuthorizedAndPreAuthorizedCodeFlow a p ha hp => exact described_two (by decide) ha hp
  | optionsAreRequiredForEvaluation r => exact described_one rfl
  | userPinMismatch => rfl
  | credentialOfferMustBeSupplied => rfl

/-- C101: the details of an error of the credential endpoint. -/
theorem C101_issuer (x : Ext) (e : CredentialIssuerError) : IssuerDetails x e (value (e.ser x)) := by
  cases e with
  | validationError e => exact C101_validation e
  | jwtError e => exact C101_jwt x e
  | authorizedFlowNotSupported => rfl
  | credentialIdNotInIssuerMetadata id => exact described_one rfl
  | invalidCredentialOfferEncoding m => exact described_one rfl
  | invalidRequestedCredential r s =>
    refine described_two (by decide) rfl ?_
    simp only [serVec, value, valueList_eq, List.map_map]
    exact ⟨_, rfl, by simp [List.forall₂_map_left_iff, asValue, List.forall₂_same]⟩
  | expiredCNonce n e => exact described_two (by decide) rfl (by cases e <;> rfl)
  | credentialAndAcceptanceTokenSupplied => rfl
  | authorizationServerMetadataNotSupported => rfl
  | credentialOfferMustBeSupplied => rfl
  | evaluteCredentialRequestOptionsNotSupplied r => exact described_one rfl
  | cNonceIsExpired n e => exact described_two (by decide) rfl rfl
  | noProofInCredentialRequest => rfl

/-- C101: the additional information of a report is present, and it is the details of the error. -/
theorem C101_details (x : Ext) (a : AnyError) :
    ∃ v, (a.information x).additionalInformation = some v ∧ DetailsOf x a v := by
  cases a with
  | validation e => exact ⟨_, rfl, C101_validation e⟩
  | jwt e => exact ⟨_, rfl, C101_jwt x e⟩
  | token e => exact ⟨_, rfl, C101_token e⟩
  | issuer e => exact ⟨_, rfl, C101_issuer x e⟩

end Oid4vci

namespace Oid4vci.Ex

/-- A token request that fails both flows, the pre-authorized one for the PIN. -/
example : ((AccessTokenError.invalidAuthorizedAndPreAuthorizedCodeFlow .authorizedFlowNotSupported
    (.invalidPreAuthorizedCodeFlowValues true false)).information).additionalInformation =
    some (.obj [(str! "authorized_error", .null), (str! "pre_authorized_error",
      .obj [(str! "does_code_match", .bool false), (str! "should_pin_be_supplied", .bool true)])]) := rfl

end Oid4vci.Ex
