import Verif.Spec.Jwt
import Verif.Spec.Calendar

/-!
How the claims of a JWT body are to be read: by name, whatever their order and whatever else the
document contains.
-/

namespace Oid4vci.Spec

/-- The member `k` occurs exactly once, with value `v`. -/
def Sole (kvs : List (Str × Json)) (k : Str) (v : Json) : Prop := (k, v) ∈ kvs ∧ memberCount [k] kvs = 1

/-- The member `k` does not occur. -/
def Absent (kvs : List (Str × Json)) (k : Str) : Prop := ∀ v, (k, v) ∉ kvs

/-- A required string claim. -/
def TextClaim (kvs : List (Str × Json)) (k : Str) (s : Str) : Prop := Sole kvs k (.str s)

/-- An optional claim, missing or `null` when there is no value. -/
def OptionalClaim {α : Type} (is : Json → α → Prop) (kvs : List (Str × Json)) (k : Str) :
    Option α → Prop
  | none => Absent kvs k ∨ Sole kvs k .null
  | some a => ∃ v, Sole kvs k v ∧ is v a

/-- A JSON string. -/
def IsText (v : Json) (s : Str) : Prop := v = .str s

/-- A JSON string which the date-time parser reads as `t`. -/
def IsInstant (x : Ext) (v : Json) (t : Time) : Prop := ∃ s, v = .str s ∧ x.parseTime s = some t

/-- The body which the members of an object describe. -/
structure ClaimsOf (x : Ext) (kvs : List (Str × Json)) (b : ProofJwtBody) : Prop where
  iss : OptionalClaim IsText kvs (str! "iss") b.issuer
  aud : TextClaim kvs (str! "aud") b.audience
  sub : OptionalClaim IsText kvs (str! "sub") b.subject
  iat : ∃ v, Sole kvs (str! "iat") v ∧ IsInstant x v b.issuedAt
  nonce : TextClaim kvs (str! "nonce") b.nonce
  nbf : OptionalClaim (IsInstant x) kvs (str! "nbf") b.notBefore
  exp : OptionalClaim (IsInstant x) kvs (str! "exp") b.expiresAt

/-- The names of the claims. -/
def claimNames : List Str :=
  [str! "iss", str! "aud", str! "sub", str! "iat", str! "nonce", str! "nbf", str! "exp"]

/-- A JSON number. -/
def IsNumber (v : Json) : Prop := (∃ n, v = .num n) ∨ ∃ d, v = .float d

/-- RFC 7519 section 2: a NumericDate is a JSON number, seconds since 1970-01-01T00:00:00Z UTC. -/
def IsNumericDate (v : Json) (t : Time) : Prop := ∃ n : Int, v = .num n ∧ t = n * 1000000000

end Oid4vci.Spec
