import Verif.Model.Jwk
import Verif.Spec.Documents
import Verif.Spec.JsonText

/-! JSON Web Keys (RFC 7517, RFC 7518 section 6, RFC 8037 section 2): which members they have. -/

namespace Oid4vci.Spec

section
variable (R : JwkRules)

/-- A string that stands for bytes. -/
def IsUint (v : Json) (b : Bytes) : Prop := ∃ s, v = .str s ∧ R.bytes s = some b

/-- The name of an algorithm, as a string or as the key of `null`. -/
def IsAlg (v : Json) (a : SsiAlg) : Prop := ∃ s, R.algorithm s = some a ∧ (v = .str s ∨ v = .obj [(s, .null)])

/-- An optional member is in order, whatever it says. -/
def Passable {α : Type} (is : Json → α → Prop) (kvs : List (Str × Json)) (k : Str) : Prop :=
  ∃ o, OptionalClaim is kvs k o

/-- RFC 7517 section 4: the members that all keys have in common; `alg` says this. -/
structure CommonMembers (kvs : List (Str × Json)) (a : Option SsiAlg) : Prop where
  use : Passable IsText kvs (str! "use")
  ops : Passable (ListOf IsText) kvs (str! "key_ops")
  alg : OptionalClaim (IsAlg R) kvs (str! "alg") a
  kid : Passable IsText kvs (str! "kid")
  x5u : Passable IsText kvs (str! "x5u")
  x5c : Passable (ListOf IsText) kvs (str! "x5c")
  x5t : Passable (IsUint R) kvs (str! "x5t")
  x5t256 : Passable (IsUint R) kvs (str! "x5t#S256")

/-- `kty` has this name (or, which serde accepts too, this position). -/
def KeyType (kvs : List (Str × Json)) (name : Str) (position : Nat) : Prop :=
  ∃ t, Sole kvs (str! "kty") t ∧ IsFormat true name position t

/-- RFC 7518 section 6.3.2.7: a further prime factor. -/
def PrimeDoc (v : Json) (p : Bytes × Bytes × Bytes) : Prop :=
  ∃ r d t, Slots [str! "r", str! "d", str! "t"] v [r, d, t] ∧ Required (IsUint R) r p.1 ∧ Required (IsUint R) d p.2.1 ∧
    Required (IsUint R) t p.2.2

/-- The members of each type of keys. -/
inductive KeyMembers (kvs : List (Str × Json)) : JwkKey → Prop
  | ec (crv : Option Str) (x y d : Option Bytes) : KeyType kvs (str! "EC") 0 →
      OptionalClaim IsText kvs (str! "crv") crv → OptionalClaim (IsUint R) kvs (str! "x") x →
      OptionalClaim (IsUint R) kvs (str! "y") y → OptionalClaim (IsUint R) kvs (str! "d") d →
      KeyMembers kvs (.ec crv x y d)
  | rsa : KeyType kvs (str! "RSA") 1 →
      (∀ k ∈ [str! "n", str! "e", str! "d", str! "p", str! "q", str! "dp", str! "dq", str! "qi"],
        Passable (IsUint R) kvs k) →
      Passable (ListOf (PrimeDoc R)) kvs (str! "oth") → KeyMembers kvs .rsa
  | symmetric : KeyType kvs (str! "oct") 2 → Passable (IsUint R) kvs (str! "k") → KeyMembers kvs .symmetric
  | okp (crv : Str) (pk : Bytes) (d : Option Bytes) : KeyType kvs (str! "OKP") 3 → TextClaim kvs (str! "crv") crv →
      (∃ v, Sole kvs (str! "x") v ∧ IsUint R v pk) → OptionalClaim (IsUint R) kvs (str! "d") d →
      KeyMembers kvs (.okp crv pk d)

/-- A JWK: the algorithm it names, and its key. -/
def JwkDoc (v : Json) (a : Option SsiAlg) (k : JwkKey) : Prop :=
  ∃ kvs, v = .obj kvs ∧ CommonMembers R kvs a ∧ KeyMembers R kvs k

/-- The bytes that are taken for the public key: those of an octet key pair, or the x coordinate of an elliptic curve key
which says that it is for EdDSA. -/
inductive UsedBytes (a : Option SsiAlg) : JwkKey → Bytes → Prop
  | okp (crv : Str) (pk : Bytes) (d : Option Bytes) : UsedBytes a (.okp crv pk d) pk
  | ec (crv : Option Str) (x : Bytes) (y d : Option Bytes) : a = some ⟨str! "EdDSA"⟩ → UsedBytes a (.ec crv (some x) y d) x

/-- The names with a meaning in a JWK of some type. -/
def jwkNames : List Str :=
  [str! "use", str! "key_ops", str! "alg", str! "kid", str! "x5u", str! "x5c", str! "x5t", str! "x5t#S256", str! "kty",
    str! "crv", str! "x", str! "y", str! "d", str! "n", str! "e", str! "p", str! "q", str! "dp", str! "dq", str! "qi",
    str! "oth", str! "k"]

/-- RFC 8037 section 2 and RFC 8032: the curves of EdDSA, and the length of their public keys in octets. -/
def edwardsCurves : List (Str × Nat) := [(str! "Ed25519", 32), (str! "Ed448", 57)]

end

end Oid4vci.Spec
