import Verif.Model.Jwt
import Verif.Model.Metadata

/-! types/credential_request.rs -/

namespace Oid4vci

open Serde

/-- types/credential_request.rs:13 `JWT_PROOF_TYPE`. -/
def jwtProofType : Str := str! "JWT"

/-- types/credential_request.rs:39-48 `CredentialRequestProof`. -/
structure CredentialRequestProof where
  proofType : Str
  jwt : Str
deriving DecidableEq, Repr

/-- types/credential_request.rs:17-35 `CredentialRequest`. -/
structure CredentialRequest where
  format : CredentialFormatProfile
  proof : Option CredentialRequestProof
deriving DecidableEq, Repr

/-- types/credential_request.rs:65-79 `validate`. -/
def CredentialRequestProof.validate (x : Ext) (p : CredentialRequestProof) :
    ValidationResult Unit := do
  if toUppercase p.proofType ≠ jwtProofType then
    .err (.any (str! "`proof_type` MUST of of value `JWT`"))
  else
    let jwt ← ProofJwt.fromStr x p.jwt
    jwt.validate
    .ok ()

/-- types/credential_request.rs:55-63 `validate`. -/
def CredentialRequest.validate (x : Ext) (r : CredentialRequest) : ValidationResult Unit :=
  match r.proof with
  | some p => do
    p.validate x
    .ok ()
  | none => .ok ()

/-- types/credential_request.rs:39-48 derived `Serialize`. -/
def CredentialRequestProof.ser (p : CredentialRequestProof) : Json :=
  .obj [(str! "proof_type", .str p.proofType), (str! "jwt", .str p.jwt)]

/-- types/credential_request.rs:39-53 derived `Deserialize`; `proof_type` defaults to `JWT`. (In the
array form both elements are needed, since `jwt` follows.) -/
def CredentialRequestProof.de (j : Json) : Option CredentialRequestProof :=
  match struct [str! "proof_type", str! "jwt"] j with
  | some [pt, jwt] => do
    let pt ← dflt Serde.string jwtProofType pt
    let jwt ← req Serde.string jwt
    some ⟨pt, jwt⟩
  | _ => none

/-- types/credential_request.rs:39-53 derived `Deserialize`: the members it reads. -/
def CredentialRequestProof.shape : Shape := .struct [(str! "proof_type", .any), (str! "jwt", .any)]

/-- types/credential_request.rs:17-35 derived `Serialize`, `format` flattened. -/
def CredentialRequest.ser (r : CredentialRequest) : Json :=
  .obj (r.format.members ++ [(str! "proof", serOpt CredentialRequestProof.ser r.proof)])

/-- types/credential_request.rs:17-35 derived `Deserialize`, `format` flattened. -/
def CredentialRequest.de (j : Json) : Option CredentialRequest :=
  match structFlat [str! "proof"] j with
  | some ([proof], rest) => do
    let proof ← opt CredentialRequestProof.de proof
    let format ← CredentialFormatProfile.de true (.obj rest)
    some ⟨format, proof⟩
  | _ => none

/-- types/credential_request.rs:17-35 derived `Deserialize`: how it reads the members; those other than
`proof` are kept for `format`. -/
def CredentialRequest.shape : Shape := .flat [(str! "proof", CredentialRequestProof.shape)]

/-- `serde_json::from_str::<CredentialRequest>`. -/
def CredentialRequest.fromJson (s : Str) : Option CredentialRequest :=
  (Json.see CredentialRequest.shape s).bind CredentialRequest.de

end Oid4vci
