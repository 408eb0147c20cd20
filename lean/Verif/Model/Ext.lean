import Verif.Base.Str
import Verif.Base.Res

/-!
Third-party behaviour outside the repository: chrono's text formats, error message texts, and the
DID and JWK libraries of `ssi`. Theorems quantify over every `Ext`.
-/

namespace Oid4vci

/-- `DateTime<Utc>`: nanoseconds since 1970-01-01T00:00:00Z. Leap-second representations of chrono
are not modelled. -/
abbrev Time := Int

namespace Time

/-- Nanoseconds per second. -/
def nsPerSec : Int := 1000000000

/-- `DateTime::<Utc>::MAX_UTC` of chrono 0.4.24, 262143-12-31T23:59:59.999999999Z. -/
def max : Time := 8210298412799999999999

/-- `DateTime::<Utc>::MIN_UTC` of chrono 0.4.24, -262144-01-01T00:00:00Z. -/
def min : Time := -8334632851200000000000

/-- Every `DateTime<Utc>` value lies in this range. -/
def Valid (t : Time) : Prop := min ≤ t ∧ t ≤ max

instance (t : Time) : Decidable (Valid t) := inferInstanceAs (Decidable (_ ∧ _))

/-- credential_issuer/mod.rs:523-524 `created_at + Duration::seconds(n)`: chrono's `Add` panics
(``` `DateTime + Duration` overflowed```) when the sum is not representable. -/
def addSeconds {ε : Type} (t : Time) (n : UInt32) : Res ε Time :=
  if t + n.toNat * nsPerSec ≤ max then .ok (t + n.toNat * nsPerSec) else .panic

end Time

/-- `ssi_dids::DIDURL` (ssi-dids 0.1.0): the DID and the remaining components. -/
structure DidUrl where
  did : Str
  path : Str
  query : Option Str
  fragment : Option Str
deriving DecidableEq, Repr

/-- `ssi_jwk::Algorithm`, identified by the name under which it is serialised. -/
structure SsiAlg where
  name : Str
deriving DecidableEq, Repr

/-- `ssi_jwk::Algorithm::EdDSA`. -/
def SsiAlg.edDSA : SsiAlg := ⟨str! "EdDSA"⟩

/-- `ssi_jwk::Algorithm::default()`. -/
def SsiAlg.default : SsiAlg := ⟨str! "none"⟩

/-- `ssi_jwk::Params`, as far as jwt/mod.rs:427-470 inspects it. -/
inductive JwkParams where
  /-- `Params::EC` with its `x_coordinate`. -/
  | ec (x : Option Bytes)
  /-- `Params::OKP` with its `public_key`. -/
  | okp (publicKey : Bytes)
  /-- `Params::RSA` and `Params::Symmetric`. -/
  | other
deriving DecidableEq, Repr

/-- `ssi_jwk::JWK`: the result of `get_algorithm()` (jwt/mod.rs:423) and the parameters. -/
structure Jwk where
  algorithm : Option SsiAlg
  params : JwkParams
deriving DecidableEq, Repr

/-- The result of `Document::select_object` (jwt/mod.rs:362). -/
inductive Selected (VM : Type) where
  | verificationMethod (vm : VM)
  /-- any other `Resource`; the code treats it as unreachable (jwt/mod.rs:383-385) -/
  | other
  | error (message : Str)

/-- Externals. -/
structure Ext where
  /-- `DateTime<Utc>: Deserialize` from a string. -/
  parseTime : Str → Option Time
  /-- `DateTime<Utc>: Serialize`. -/
  showTime : Time → Str
  /-- `DateTime<Utc>: Display`. -/
  dispTime : Time → Str
  /-- message of the base64 decode error for an input that does not decode -/
  base64Msg : Str → Str
  /-- message of the JSON error for a JWT header that does not deserialise -/
  headerMsg : Bytes → Str
  /-- message of the JSON error for a JWT body that does not deserialise -/
  bodyMsg : Bytes → Str
  /-- `ssi_dids::Document` -/
  Doc : Type
  /-- `ssi_dids::VerificationMethodMap` -/
  VM : Type
  /-- `DIDURL::try_from(String)`, with the error's `to_string()` -/
  didUrl : Str → Except Str DidUrl
  /-- `DIDURL: Display` -/
  didUrlDisplay : DidUrl → Str
  /-- `Document::select_object` -/
  select : Doc → DidUrl → Selected VM
  /-- `VerificationMethodMap::get_jwk`, with the error's `to_string()` -/
  getJwk : VM → Except Str Jwk
  /-- `serde_json::from_str::<JWK>`, with the error's `to_string()` -/
  parseJwk : Str → Except Str Jwk
  /-- whether serde accepts `Some(Value::Null)` in a flattened `Option<Value>` field -/
  flattenNullOk : Bool

end Oid4vci
