import Verif.Spec.Evaluate

/-! What the reply to a rejected request may be measured by. -/

namespace Oid4vci.Spec

/-- The libraries' own messages are at most eleven times as long as what they are about, and `K` more; what they take from
a text is no longer than it, and `K` more. -/
structure Restrained (x : Ext) (K : Nat) : Prop where
  base64 : ∀ s, (x.base64Msg s).length ≤ 11 * (utf8Encode s).length + K
  header : ∀ b, (x.headerMsg b).length ≤ 11 * b.length + K
  body : ∀ b, (x.bodyMsg b).length ≤ 11 * b.length + K
  time : ∀ s t, x.parseTime s = some t → (x.showTime t).length ≤ s.length + K
  didMessage : ∀ s msg, x.didUrl s = .error msg → msg.length ≤ 11 * s.length + K
  did : ∀ s url, x.didUrl s = .ok url → (x.didUrlDisplay url).length ≤ s.length + K
  selectMessage : ∀ s url d msg, x.didUrl s = .ok url → x.select d url = .error msg → msg.length ≤ 11 * s.length + K
  methodMessage : ∀ vm msg, x.getJwk vm = .error msg → msg.length ≤ K
  method : ∀ vm k a, x.getJwk vm = .ok k → k.algorithm = some a → a.name.length ≤ K
  jwkMessage : ∀ s msg, x.parseJwk s = .error msg → msg.length ≤ 11 * s.length + K
  jwk : ∀ s k a, x.parseJwk s = .ok k → k.algorithm = some a → a.name.length ≤ s.length + K

/-- The octets of the proof that was sent. -/
def sentLength (r : CredentialRequest) : Nat :=
  match r.proof with
  | some p => (utf8Encode p.jwt).length
  | none => 0

/-- How long the issuer's own values are: its name, the client id, the nonce and its times. -/
def ownLength (x : Ext) (now : Time) (m : CredentialIssuerMetadata) (options : Option EvaluateCredentialRequestOptions) :
    Nat :=
  m.credentialIssuer.length + (clientId options).elim 0 List.length + (nonceOptions options).elim 0 fun c =>
    c.expectedCNonce.length + (x.showTime now).length + (x.dispTime now).length + (x.showTime (nonceExpiry c)).length +
      (x.dispTime (nonceExpiry c)).length

end Oid4vci.Spec
