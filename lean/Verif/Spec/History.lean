import Verif.Spec.Evaluate
import Verif.Model.Issuer

/-! Histories of calls, for the properties about several requests. -/

namespace Oid4vci.Spec

/-- One evaluated credential request: when, with what, and with which settings. -/
structure Call (x : Ext) where
  now : Time
  metadata : CredentialIssuerMetadata
  request : CredentialRequest
  offer : Option CredentialOffer
  authorizationServer : Option AuthorizationServerMetadata
  document : Option x.Doc
  options : Option EvaluateCredentialRequestOptions

/-- The call is accepted with this response. -/
def Call.Gives {x : Ext} (c : Call x) (resp : CredentialIssuerEvaluateRequestResponse) : Prop :=
  CredentialIssuer.evaluateCredentialRequest x c.now c.metadata c.request c.offer c.authorizationServer
    c.document c.options = .ok resp

/-- The call is accepted. -/
def Call.Accepted {x : Ext} (c : Call x) : Prop := ∃ resp, c.Gives resp

/-- The text of the proof. -/
def Call.proofText {x : Ext} (c : Call x) : Option Str := c.request.proof.map (·.jwt)

/-- The nonce the issuer expects. -/
def Call.nonce {x : Ext} (c : Call x) : Option Str := (nonceOptions c.options).map (·.expectedCNonce)

/-- The client the issuer expects. -/
def Call.client {x : Ext} (c : Call x) : Option Str := clientId c.options

end Oid4vci.Spec
