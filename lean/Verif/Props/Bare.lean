import Verif.Props.Details
import Verif.Spec.Bare

/-!
Reports of errors without details (C138).
-/

namespace Oid4vci

open Spec Serde

theorem adds_iff (i : ErrorInformation) (v : Json) : Adds i v ↔ i.additionalInformation = some v := by
  obtain ⟨c, n, d, a⟩ := i
  constructor
  · rintro ⟨kvs, h, hm⟩
    cases h
    cases a with
    | none => simp [skipNone] at hm
    | some w => simp [skipNone] at hm; rw [hm]
  · rintro ⟨⟩
    exact ⟨_, rfl, by simp [skipNone]⟩

theorem described_not_null {fields : List (Str × (Json → Prop))} (h : Described fields .null) : False := by
  obtain ⟨_, h, _⟩ := h
  cases h

theorem details_null_iff (x : Ext) (a : AnyError) {v : Json} (h : DetailsOf x a v) : v = .null ↔ Bare a := by
  constructor
  · rintro rfl
    have hv : ∀ {e : ValidationError}, ¬ ValidationDetails e .null := fun {e} h => by cases e; exact described_not_null h
    have hj : ∀ {e : JwtError}, JwtDetails x e .null → BareJwt e := fun {e} h => by
      cases e
      case validationError e => exact (hv h).elim
      case noKeyFoundInProof => exact .key
      case noDidDocumentProvidedForKidAsDid => exact .document
      case edDSAHasNoXCoordinate => exact .coordinate
      all_goals exact (described_not_null h).elim
    cases a with
    | validation e => exact (hv h).elim
    | jwt e => exact .jwt (hj h)
    | token e =>
      cases e
      case validationError e => exact (hv h).elim
      case authorizedFlowNotSupported => exact .tokenFlow
      case noFlowSupportedInCredentialOffer => exact .tokenNoFlow
      case userPinMismatch => exact .tokenPin
      case credentialOfferMustBeSupplied => exact .tokenOffer
      all_goals exact (described_not_null h).elim
    | issuer e =>
      cases e
      case validationError e => exact (hv h).elim
      case jwtError e => exact .issuerJwt (hj h)
      case authorizedFlowNotSupported => exact .issuerFlow
      case credentialAndAcceptanceTokenSupplied => exact .issuerBoth
      case authorizationServerMetadataNotSupported => exact .issuerServer
      case credentialOfferMustBeSupplied => exact .issuerOffer
      case noProofInCredentialRequest => exact .issuerProof
      all_goals exact (described_not_null h).elim
  · intro hb
    cases hb with
    | jwt hb => cases hb <;> exact h
    | issuerJwt hb => cases hb <;> exact h
    | _ => exact h

/-- C138 in full: a report has the member `additional_information` exactly if the error has details. -/
def C138_statement : Prop := ∀ (x : Ext) (a : AnyError), (∃ v, Adds (a.information x) v) ↔ ¬ Bare a

/-- C138 is violated exactly so: every report has the member, and it is `null` for the errors without details. -/
theorem C138_null (x : Ext) (a : AnyError) :
    (∃ v, Adds (a.information x) v) ∧ (Adds (a.information x) .null ↔ Bare a) := by
  obtain ⟨v, hv, hd⟩ := C101_details x a
  refine ⟨⟨v, (adds_iff _ _).2 hv⟩, ?_⟩
  rw [adds_iff, hv, Option.some.injEq]
  exact details_null_iff x a hd

/-- C138 does not hold. -/
theorem C138_refuted : ¬ C138_statement := fun h =>
  (h Ex.ext (.token .userPinMismatch)).1 (C138_null _ _).1 .tokenPin

/-- C138, partial: the report of an error with details has them. Missing: the other errors, see `C138_null`. -/
theorem C138_present_partial (x : Ext) (a : AnyError) (h : ¬ Bare a) : ∃ v, Adds (a.information x) v ∧ v ≠ .null := by
  obtain ⟨v, hv⟩ := (C138_null x a).1
  exact ⟨v, hv, fun hn => h ((C138_null x a).2.1 (hn ▸ hv))⟩

theorem omitting_eq (x : Ext) (a : AnyError) : ∃ v, (a.information x).additionalInformation = some v ∧
    omitting x a = { a.information x with additionalInformation := if v = .null then none else some v } := by
  cases a <;> exact ⟨_, rfl, rfl⟩

/-- C138: in the other form of the macro, the report has the member exactly if the error has details. -/
theorem C138_omitting (x : Ext) (a : AnyError) : (∃ v, Adds (omitting x a) v) ↔ ¬ Bare a := by
  obtain ⟨v, hv, ho⟩ := omitting_eq x a
  obtain ⟨w, hw, hd⟩ := C101_details x a
  rw [hv] at hw
  cases hw
  have hn := details_null_iff x a hd
  simp only [adds_iff, ho]
  split
  · rename_i h
    simp [hn.1 h]
  · rename_i h
    simpa using fun hb => h (hn.2 hb)

/-- C138: otherwise the two forms of the macro report alike. -/
theorem C138_forms (x : Ext) (a : AnyError) :
    (omitting x a).code = (a.information x).code ∧ (omitting x a).name = (a.information x).name ∧
    (omitting x a).description = (a.information x).description ∧ (omitting x a = a.information x ↔ ¬ Bare a) := by
  obtain ⟨v, hv, ho⟩ := omitting_eq x a
  refine ⟨by rw [ho], by rw [ho], by rw [ho], fun h => ?_, fun h => ?_⟩
  · exact (C138_omitting x a).1 (h ▸ (C138_null x a).1)
  · have : v ≠ .null := fun hn => h ((C138_null x a).2.1 ((adds_iff _ _).2 (hn ▸ hv)))
    rw [ho, if_neg this, ← hv]

end Oid4vci

namespace Oid4vci.Ex

open Spec

/-- The two reports of a wrong PIN. -/
example : ((AnyError.token .userPinMismatch).information ext).display =
    str! "{\"code\":407,\"name\":\"UserPinMismatch\",\"description\":\"Provided user pin does not match user pin from access token request\",\"additional_information\":null}" := by
  decide +kernel
example : (omitting ext (.token .userPinMismatch)).display =
    str! "{\"code\":407,\"name\":\"UserPinMismatch\",\"description\":\"Provided user pin does not match user pin from access token request\"}" := by
  decide +kernel

/-- An error with details. -/
example : ¬ Bare (.issuer (.credentialIdNotInIssuerMetadata (str! "id"))) := by rintro ⟨⟩
example : (omitting ext (.issuer (.credentialIdNotInIssuerMetadata (str! "id")))) =
    (AnyError.issuer (.credentialIdNotInIssuerMetadata (str! "id"))).information ext :=
  (C138_forms ext _).2.2.2.2 (by rintro ⟨⟩)

end Oid4vci.Ex
