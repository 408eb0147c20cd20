import Verif.Spec.Reject
import Verif.Spec.Report

/-! What the report of a rejected credential request tells about the nonce it was compared with (C133). -/

namespace Oid4vci.Spec

/-- Options with this nonce to expect, with its lifetime, the time of its creation, and a client. -/
def expecting (lifetime : UInt32) (created : Time) (client : Option Str) (n : Str) :
    Option EvaluateCredentialRequestOptions := some ⟨some ⟨lifetime, n, created⟩, client⟩

/-- No proof in the request carries this nonce. -/
def Lacks (x : Ext) (r : CredentialRequest) (n : Str) : Prop := ∀ jwt, Carries x r jwt → jwt.body.nonce ≠ n

/-- Everything that is looked at before the nonce is in order. -/
structure NonceCompared (x : Ext) (now : Time) (m : CredentialIssuerMetadata) (r : CredentialRequest)
    (offer : Option CredentialOffer) (asm : Option AuthorizationServerMetadata)
    (options : Option EvaluateCredentialRequestOptions) (jwt : ProofJwt) : Prop where
  configured : Configured m offer asm
  timely : Timely now options
  carries : Carries x r jwt
  typ : EqFold jwt.header.typ proofTyp

/-- What a report says without its additional information. -/
def summary (i : ErrorInformation) : UInt32 × Str × Str := (i.code, i.name, i.description)

end Oid4vci.Spec
