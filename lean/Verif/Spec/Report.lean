import Verif.Spec.Response
import Verif.Spec.Reject

/-! Specification of the reports handed to the caller of a rejected operation. -/

namespace Oid4vci.Spec

/-- The report of a failed operation: the `error` member of its return object. -/
def reportOf {ε T : Type} (information : ε → ErrorInformation) : Res ε T → Option ErrorInformation
  | .ok t => (toReturnObject information (.ok t : Except ε T)).error
  | .err e => (toReturnObject information (.error e : Except ε T)).error
  | .panic => none

/-- The additional information is an object with these members, in any order, and no others. -/
def Details (i : ErrorInformation) (kvs : List (Str × Json)) : Prop :=
  ∃ l, i.additionalInformation = some (.obj l) ∧ l.Perm kvs

/-- A text that may be absent. -/
def orNull : Option Str → Json
  | some s => .str s
  | none => .null

/-- Instants with distinct texts. -/
def DistinctTexts (x : Ext) (T : Time → Prop) : Prop :=
  ∀ s t, T s → T t → x.showTime s = x.showTime t → s = t

/-- An error of the issuer's operations. -/
inductive IssuerReturns (x : Ext) (e : CredentialIssuerError) : Prop
  | createOffer (m cs endpoint a p) :
      CredentialIssuer.createOffer m cs endpoint a p = .err e → IssuerReturns x e
  | preEvaluate (r) : CredentialIssuer.preEvaluateCredentialRequest x r = .err e → IssuerReturns x e
  | evaluate (now m r offer asm doc options) :
      CredentialIssuer.evaluateCredentialRequest x now m r offer asm doc options = .err e →
      IssuerReturns x e
  | success (now r c nonce) :
      CredentialIssuer.createCredentialSuccessResponse x now r c nonce = .err e → IssuerReturns x e

end Oid4vci.Spec
