import Verif.Spec.Details

/-! Specification of the errors without details. -/

namespace Oid4vci.Spec

/-- jwt/error.rs:49, 53, 101: the variants of errors of JWTs without fields. -/
inductive BareJwt : JwtError → Prop
  | key : BareJwt .noKeyFoundInProof
  | document : BareJwt .noDidDocumentProvidedForKidAsDid
  | coordinate : BareJwt .edDSAHasNoXCoordinate

/-- The errors without fields, and the one that passes on such an error. -/
inductive Bare : AnyError → Prop
  | jwt {e : JwtError} : BareJwt e → Bare (.jwt e)
  | tokenFlow : Bare (.token .authorizedFlowNotSupported)
  | tokenNoFlow : Bare (.token .noFlowSupportedInCredentialOffer)
  | tokenPin : Bare (.token .userPinMismatch)
  | tokenOffer : Bare (.token .credentialOfferMustBeSupplied)
  | issuerJwt {e : JwtError} : BareJwt e → Bare (.issuer (.jwtError e))
  | issuerFlow : Bare (.issuer .authorizedFlowNotSupported)
  | issuerBoth : Bare (.issuer .credentialAndAcceptanceTokenSupplied)
  | issuerServer : Bare (.issuer .authorizationServerMetadataNotSupported)
  | issuerOffer : Bare (.issuer .credentialOfferMustBeSupplied)
  | issuerProof : Bare (.issuer .noProofInCredentialRequest)

/-- The report as a document has additional information. -/
def Adds (i : ErrorInformation) (v : Json) : Prop :=
  ∃ kvs, i.ser = .obj kvs ∧ (str! "additional_information", v) ∈ kvs

/-- The report in the form of the macro for errors without a result type. -/
def omitting (x : Ext) : AnyError → ErrorInformation
  | .validation e => informationOmitting e.code e.name e.description e.ser
  | .jwt e => informationOmitting e.code e.name (e.description x) (e.ser x)
  | .token e => informationOmitting e.code e.name e.description e.ser
  | .issuer e => informationOmitting e.code e.name (e.description x) (e.ser x)

end Oid4vci.Spec
