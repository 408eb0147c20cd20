import Verif.Base.Serde
import Verif.Model.Ext

/-!
JWKs as ssi-jwk 0.1.0 (the version in Cargo.lock) reads them, for the `jwk` of a proof's header (jwt/mod.rs:389-394).
ssi-jwk is not part of the repository; this module instantiates the field `parseJwk` of `Ext`, over which the theorems
quantify.
-/

namespace Oid4vci

open Serde

/-- `ssi_jwk::Params`: `ECParams`, `OctetParams`; `RSAParams` and `SymmetricParams` are not looked into. -/
inductive JwkKey where
  | ec (curve : Option Str) (x y d : Option Bytes)
  | rsa
  | symmetric
  | okp (curve : Str) (publicKey : Bytes) (d : Option Bytes)
deriving DecidableEq, Repr

/-- Details of ssi-jwk which are left open. -/
structure JwkRules where
  /-- the names of `ssi_jwk::Algorithm` -/
  algorithm : Str → Option SsiAlg
  /-- what `get_algorithm` answers for a key that names none -/
  inferred : JwkKey → Option SsiAlg
  /-- `Base64urlUInt::try_from(String)` -/
  bytes : Str → Option Bytes
  /-- message of the JSON error for a text that does not deserialise -/
  message : Str → Str

namespace JwkRules
variable (R : JwkRules)

/-- `Base64urlUInt`: from a string. -/
def uint : De Bytes
  | .str s => R.bytes s
  | _ => none

/-- `ssi_jwk::Algorithm`: the name as a string, or `{"<name>": null}`. -/
def alg : De SsiAlg
  | .str s => R.algorithm s
  | .obj [(k, .null)] => R.algorithm k
  | _ => none

/-- `ECParams`. -/
def ec (j : Json) : Option JwkKey :=
  match struct [str! "crv", str! "x", str! "y", str! "d"] j with
  | some [crv, x, y, d] => do
    let crv ← opt Serde.string crv
    let x ← opt R.uint x
    let y ← opt R.uint y
    let d ← opt R.uint d
    some (.ec crv x y d)
  | _ => none

/-- `Prime`, an element of `oth`; its content is not looked at. -/
def prime (j : Json) : Option (Bytes × Bytes × Bytes) :=
  match struct [str! "r", str! "d", str! "t"] j with
  | some [r, d, t] => do
    let r ← req R.uint r
    let d ← req R.uint d
    let t ← req R.uint t
    some (r, d, t)
  | _ => none

/-- The members of `RSAParams` which are numbers. -/
def rsaNumbers : List Str :=
  [str! "n", str! "e", str! "d", str! "p", str! "q", str! "dp", str! "dq", str! "qi"]

/-- `RSAParams`: every member is optional. -/
def rsa (j : Json) : Option JwkKey :=
  match struct (rsaNumbers ++ [str! "oth"]) j with
  | some os =>
    if (os.take 8).all (fun o => (opt R.uint o).isSome) && (os.drop 8).all (fun o => (opt (vec R.prime) o).isSome) then
      some .rsa
    else none
  | none => none

/-- `SymmetricParams`. -/
def symmetric (j : Json) : Option JwkKey :=
  match struct [str! "k"] j with
  | some [k] => (opt R.uint k).map fun _ => .symmetric
  | _ => none

/-- `OctetParams`. -/
def okp (j : Json) : Option JwkKey :=
  match struct [str! "crv", str! "x", str! "d"] j with
  | some [crv, x, d] => do
    let crv ← req Serde.string crv
    let x ← req R.uint x
    let d ← opt R.uint d
    some (.okp crv x d)
  | _ => none

/-- The variants of `Params`. -/
def kinds : List Str := [str! "EC", str! "RSA", str! "oct", str! "OKP"]

/-- `Params`, tagged with `kty` and flattened: the members went through serde's buffer. -/
def params (rest : List (Str × Json)) : Option JwkKey := do
  let (t, content) ← tagged (str! "kty") (.obj rest)
  match ← variant kinds true t with
  | 0 => R.ec content
  | 1 => R.rsa content
  | 2 => R.symmetric content
  | _ => R.okp content

/-- The members of `JWK` apart from `Params`. -/
def general : List Str :=
  [str! "use", str! "key_ops", str! "alg", str! "kid", str! "x5u", str! "x5c", str! "x5t", str! "x5t#S256"]

/-- `JWK`: the algorithm it names, and its key. -/
def de (j : Json) : Option (Option SsiAlg × JwkKey) :=
  match structFlat general j with
  | some ([use, ops, a, kid, x5u, x5c, x5t, x5t256], rest) => do
    let _ ← opt Serde.string use
    let _ ← opt (vec Serde.string) ops
    let a ← opt R.alg a
    let _ ← opt Serde.string kid
    let _ ← opt Serde.string x5u
    let _ ← opt (vec Serde.string) x5c
    let _ ← opt R.uint x5t
    let _ ← opt R.uint x5t256
    let k ← R.params rest
    some (a, k)
  | _ => none

/-- What jwt/mod.rs:422-471 looks at. -/
def shown (a : Option SsiAlg) (k : JwkKey) : Jwk :=
  ⟨a.or (R.inferred k), match k with
    | .ec _ x _ _ => .ec x
    | .okp _ pk _ => .okp pk
    | _ => .other⟩

/-- `serde_json::from_str::<JWK>`. -/
def read (s : Str) : Except Str Jwk :=
  match (Json.parse s).bind R.de with
  | some (a, k) => .ok (R.shown a k)
  | none => .error (R.message s)

end JwkRules

/-- The externals with JWKs as ssi-jwk reads them. -/
def withJwks (R : JwkRules) (x : Ext) : Ext := { x with parseJwk := R.read }

end Oid4vci
