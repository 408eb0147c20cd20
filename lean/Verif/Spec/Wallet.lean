import Verif.Spec.Offer
import Verif.Spec.Wire
import Verif.Model.AccessToken

/-! What a wallet makes of the texts it receives. -/

namespace Oid4vci.Spec

/-- The text is read as the value, by the reader `read` of its type. -/
def ReadsTo {α : Type} (read : Str → Option α) (text : Str) (a : α) : Prop := read text = some a

/-- The credential in a response: an object as it is, or a base64url text of its JSON text. -/
def Holds (resp : CredentialSuccessResponse) (c : CredentialFormatProfile) : Prop :=
  resp.credential = some (.credentialFormatProfile c) ∨
  ∃ s b t, resp.credential = some (.encoded s) ∧ base64urlDecode s = some b ∧ utf8Decode b = some t ∧
    ReadsTo CredentialFormatProfile.fromJson t c

/-- The metadata as far as a wallet can tell: further members are none or an empty object. -/
def SameMetadata (m m' : CredentialIssuerMetadata) : Prop :=
  { m with additionalFields := some (m.additionalFields.getD []) } = m'

end Oid4vci.Spec
