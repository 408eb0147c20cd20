import Verif.Model.Issuer

/-! Specification of metadata validity, credential resolution and offers. -/

namespace Oid4vci.Spec

/-- No two entries (at different positions) carry the same id. -/
def DistinctIds (cs : List CredentialSupported) : Prop :=
  ∀ (i j : Nat) (a b : CredentialSupported) (id : Str), cs[i]? = some a → cs[j]? = some b →
    a.id = some id → b.id = some id → i = j

/-- Some entry has this id. -/
def KnownId (m : CredentialIssuerMetadata) (id : Str) : Prop :=
  ∃ e ∈ m.credentialsSupported, e.id = some id

/-- `f` is the format of the first entry with this id. -/
def FirstEntry (m : CredentialIssuerMetadata) (id : Str) (f : CredentialFormatProfile) : Prop :=
  ∃ before e after, m.credentialsSupported = before ++ e :: after ∧ e.id = some id ∧ e.format = f ∧
    ∀ e' ∈ before, e'.id ≠ some id

/-- What an entry of an offer stands for. -/
def StandsFor (m : CredentialIssuerMetadata) : CredentialOrId → CredentialFormatProfile → Prop
  | .credential c, f => c = f
  | .credentialId id, f => FirstEntry m id f

/-- An entry of the offer that can be resolved. -/
def Resolvable (m : CredentialIssuerMetadata) : CredentialOrId → Prop
  | .credential _ => True
  | .credentialId id => KnownId m id

/-- A credential the issuer supports. -/
def Supported (m : CredentialIssuerMetadata) : CredentialOrId → Prop
  | .credential c => ∃ e ∈ m.credentialsSupported, e.format = c
  | .credentialId id => KnownId m id

/-- The first entry that cannot be resolved is the id `id`. -/
def FirstUnknown (m : CredentialIssuerMetadata) (cs : CredentialOrIds) (id : Str) : Prop :=
  ∃ before after, cs = before ++ .credentialId id :: after ∧ (∀ c ∈ before, Resolvable m c) ∧
    ¬ KnownId m id

end Oid4vci.Spec
