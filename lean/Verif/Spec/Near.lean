import Verif.Spec.Json
import Verif.Model.Issuer

/-! Documents, and values with parts of documents, whose numbers are close to each other. -/

namespace Oid4vci.Spec

/-- `d'` differs from `d` by at most one part in `2^49`, or a few of the smallest steps near zero. -/
def Close (d d' : Double) : Prop :=
  IsDouble d'.mant d'.exp ∧ d'.neg = d.neg ∧
    |value d'.mant d'.exp - value d.mant d.exp| ≤ value d.mant d.exp * 2 ^ (-49 : Int) + 2 ^ (-1072 : Int)

mutual
/-- The second document is the first one, up to small differences of its double-precision numbers. -/
def Near : Json → Json → Prop
  | .null, w => w = .null
  | .bool b, w => w = .bool b
  | .num n, w => w = .num n
  | .str s, w => w = .str s
  | .float d, w => ∃ d', w = .float d' ∧ Close d d'
  | .arr xs, w => ∃ ys, w = .arr ys ∧ NearList xs ys
  | .obj kvs, w => ∃ ys, w = .obj ys ∧ NearMembers kvs ys
/-- Element by element. -/
def NearList : List Json → List Json → Prop
  | [], ys => ys = []
  | x :: xs, zs => ∃ y ys, zs = y :: ys ∧ Near x y ∧ NearList xs ys
/-- Member by member, with the same names. -/
def NearMembers : List (Str × Json) → List (Str × Json) → Prop
  | [], ys => ys = []
  | (k, v) :: xs, zs => ∃ w ys, zs = (k, w) :: ys ∧ Near v w ∧ NearMembers xs ys
end

/-- The same string, or members that are near. -/
def NearContext : LinkedDataContext → LinkedDataContext → Prop
  | .string s, c => c = .string s
  | .map m, c => ∃ m', c = .map m' ∧ NearMembers m m'

/-- The same credential, up to numbers in its contexts. -/
def NearCredential : CredentialFormatProfile → CredentialFormatProfile → Prop
  | .ldpVc ctx types cs order, c => ∃ ctx', c = .ldpVc ctx' types cs order ∧ List.Forall₂ NearContext ctx ctx'
  | c, c' => c' = c

/-- The same identifier, or a near credential. -/
def NearEntry : CredentialOrId → CredentialOrId → Prop
  | .credentialId s, c => c = .credentialId s
  | .credential f, c => ∃ f', c = .credential f' ∧ NearCredential f f'

/-- The same offer, up to numbers in its contexts. -/
def NearOffer (o o' : CredentialOffer) : Prop :=
  ∃ cs, o' = { o with credentials := cs } ∧ List.Forall₂ NearEntry o.credentials cs

/-- The same request, up to numbers in its contexts. -/
def NearRequest (r r' : CredentialRequest) : Prop :=
  ∃ f, r' = { r with format := f } ∧ NearCredential r.format f

/-- The same response, up to numbers in the contexts of its credential. -/
def NearResponse (r r' : CredentialSuccessResponse) : Prop :=
  r' = r ∨ ∃ f f', r.credential = some (.credentialFormatProfile f) ∧
    r' = { r with credential := some (.credentialFormatProfile f') } ∧ NearCredential f f'

/-- The same entry of the metadata, up to numbers in its contexts. -/
def NearSupported (c c' : CredentialSupported) : Prop :=
  ∃ f, c' = { c with format := f } ∧ NearCredential c.format f

/-- The same metadata, up to numbers in contexts and additional members; absent additional members are an
empty map. -/
def NearMetadata (m m' : CredentialIssuerMetadata) : Prop :=
  ∃ cs a, m' = { m with credentialsSupported := cs, additionalFields := some a } ∧
    List.Forall₂ NearSupported m.credentialsSupported cs ∧ NearMembers (m.additionalFields.getD []) a

end Oid4vci.Spec
