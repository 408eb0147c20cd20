import Verif.Model.Document
import Verif.Model.Jwk

/-!
Verification methods as ssi-dids 0.1.0 (the version in Cargo.lock) keeps them, and the key it takes from them
(jwt/mod.rs:371-376 `vm.get_jwk()`). ssi-dids is not part of the repository; this module instantiates the fields `VM` and
`getJwk` of `Ext`, over which the theorems quantify.
-/

namespace Oid4vci

/-- `ssi_dids::VerificationMethodMap`, as far as `get_jwk` looks at it. `property_set` is an optional map; none and the
empty one are the same here. -/
structure MethodMap where
  type : Str
  publicKeyJwk : Option (Option SsiAlg × JwkKey)
  publicKeyBase58 : Option Str
  property : Str → Option Json

/-- Details of ssi-dids and of the crates for the encodings which are left open. -/
structure MethodRules where
  /-- `bs58::decode(…).into_vec()` -/
  base58 : Str → Except Str Bytes
  /-- `hex::decode`, after an optional `0x` -/
  hex : Str → Except Str Bytes
  /-- `multibase::decode`, without the code of the base -/
  multibase : Str → Except Str Bytes
  /-- the key that bytes stand for in methods of this type -/
  raw : Str → Bytes → Except Str (Option SsiAlg × JwkKey)
  /-- `Error::MissingKey` -/
  missing : Str
  /-- `Error::MultipleKeyMaterial` -/
  multiple : Str
  /-- `Error::HexString` -/
  hexText : Str
  /-- `Error::ExpectedStringPublicKeyMultibase` -/
  multibaseText : Str

namespace MethodMap

/-- The property `publicKeyMultibase`: a string, or `null` for none. -/
def multibase (M : MethodRules) (m : MethodMap) : Except Str (Option Str) :=
  match m.property (str! "publicKeyMultibase") with
  | none | some .null => .ok none
  | some (.str s) => .ok (some s)
  | some _ => .error M.multibaseText

/-- `VerificationMethodMap::get_jwk`: the algorithm that the key names, and the key. -/
def get (M : MethodRules) (m : MethodMap) : Except Str (Option SsiAlg × JwkKey) := do
  let multibase ← m.multibase M
  match m.publicKeyJwk, m.publicKeyBase58, m.property (str! "publicKeyHex"), multibase with
  | some k, none, none, none => .ok k
  | none, some s, none, none => do M.raw m.type (← M.base58 s)
  | none, none, some (.str s), none => do M.raw m.type (← M.hex s)
  | none, none, some _, none => .error M.hexText
  | none, none, none, some s => do M.raw m.type (← M.multibase s)
  | none, none, none, none => .error M.missing
  | _, _, _, _ => .error M.multiple

/-- What jwt/mod.rs:422-471 looks at. -/
def getJwk (R : JwkRules) (M : MethodRules) (m : MethodMap) : Except Str Jwk := do
  let k ← m.get M
  .ok (R.shown k.1 k.2)

end MethodMap

/-- The externals with verification methods and JWKs as ssi-dids and ssi-jwk have them. -/
def withMethodMaps (rules : SelectRules) (R : JwkRules) (M : MethodRules) (x : Ext) : Ext :=
  { withJwks R x with
    VM := MethodMap, getJwk := MethodMap.getJwk R M, Doc := Document MethodMap, select := Document.select rules }

/-- The externals with DID URLs and DID documents too. -/
def withMethods (rules : SelectRules) (R : JwkRules) (M : MethodRules) (x : Ext) : Ext :=
  withDocuments rules (withMethodMaps rules R M x)

end Oid4vci
