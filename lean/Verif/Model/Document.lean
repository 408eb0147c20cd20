import Verif.Model.Did

/-!
DID documents as ssi-dids 0.1.0 (the version in Cargo.lock) represents and searches them, for `select_object` in
jwt/mod.rs:362. ssi-dids is not part of the repository; this module instantiates the fields `Doc` and `select` of `Ext`,
over which the theorems quantify. What a verification method is, apart from its id, and the key it has (`get_jwk`) stay
parameters.
-/

namespace Oid4vci

/-- `ssi_dids::VerificationMethod`: a reference (`DIDURL`, `RelativeDIDURL`), or the method itself (`Map`) with the `id` of
`VerificationMethodMap`. -/
inductive DocumentEntry (VM : Type) where
  | reference (url : Str)
  | method (id : Str) (vm : VM)
deriving DecidableEq, Repr

/-- `ssi_dids::Document`, without the members that `select_object` does not look at. -/
structure Document (VM : Type) where
  id : Str
  verificationMethod : Option (List (DocumentEntry VM))
  authentication : Option (List (DocumentEntry VM))
  assertionMethod : Option (List (DocumentEntry VM))
  keyAgreement : Option (List (DocumentEntry VM))
  capabilityInvocation : Option (List (DocumentEntry VM))
  capabilityDelegation : Option (List (DocumentEntry VM))
  publicKey : Option (List (DocumentEntry VM))
deriving DecidableEq, Repr

/-- Details of the search which are left open: the source of ssi-dids is not at hand, and versions differ. -/
structure SelectRules where
  /-- whether methods are also found under the id relative to the document's own -/
  relative : Bool
  /-- whether the list `publicKey` of the early drafts of DID Core is searched, after the others -/
  publicKey : Bool
deriving DecidableEq, Repr

namespace Document

/-- The body of the loop of `select_object`: the method, if this entry has the id, whole or without the DID of the
document. -/
def named {VM : Type} (rules : SelectRules) (d : Document VM) (u : DidUrl) : DocumentEntry VM → Option VM
  | .reference _ => none
  | .method id vm =>
    if id = Did.display u ∨ (rules.relative = true ∧ u.did = d.id ∧ id = Did.display { u with did := [] }) then some vm
    else none

/-- `Document::select_object`: the first verification method in the document whose id is the printed DID URL
(`Error::ResourceNotFound` is displayed as `Resource not found`, as jwt/mod.rs:781-784 confirms). -/
def select {VM : Type} (rules : SelectRules) (d : Document VM) (u : DidUrl) : Selected VM :=
  match ([d.verificationMethod, d.authentication, d.assertionMethod, d.keyAgreement, d.capabilityInvocation,
      d.capabilityDelegation, if rules.publicKey then d.publicKey else none].flatMap (·.getD [])).findSome?
      (named rules d u) with
  | some vm => .verificationMethod vm
  | none => .error (str! "Resource not found")

end Document

/-- The externals with DID URLs and DID documents as ssi-dids has them. -/
def withDocuments (rules : SelectRules) (x : Ext) : Ext :=
  { withDids x with Doc := Document x.VM, select := Document.select rules }

end Oid4vci
