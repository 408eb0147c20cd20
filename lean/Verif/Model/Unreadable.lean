import Verif.Base.Reading
import Verif.Model.Jwt

/-!
What is reported about the header or body of a proof JWT that cannot be read (jwt/mod.rs:98-99, validate.rs:30-36):
the readers which `#[derive(Deserialize)]` (serde 1.0.163) gives to `ProofJwtHeader` and `ProofJwtBody`, on the
reader of `Base.Reading.lean`. They return the document; `ProofJwtHeader.de` and `ProofJwtBody.de` take it apart.
-/

namespace Oid4vci

open Reading

/-- `String: Deserialize`. -/
def readText (T : Texts) : Reader Json := visitStr T (str! "a string") fun s => pure (.str s)

/-- `DateTime<Utc>: Deserialize`. -/
def readTime (x : Ext) (T : Texts) : Reader Json :=
  visitStr T T.timeExpected fun s =>
    match x.parseTime s with
    | some _ => pure (.str s)
    | none => custom (T.time s)

/-- jwt/mod.rs:13-64: the names of the algorithms. -/
def algNames : List Str := ProofJwtAlgorithm.all.map ProofJwtAlgorithm.name

/-- jwt/mod.rs:318-332: the fields of the header that are not flattened. -/
def headerField (T : Texts) (k : Str) : Option (Reader Json) :=
  if k = str! "typ" then some (readText T)
  else if k = str! "alg" then some (variant T algNames)
  else none

/-- jwt/mod.rs:318-332 `ProofJwtHeader: Deserialize`: with a flattened field there is no `visit_seq`, and other
members are buffered (`Content`) one level deeper than the header itself. The flattened `Option` never fails. -/
def readHeader (T : Texts) : Reader Json :=
  settle do
    match ← ws with
    | none => ahead eofValue
    | some c =>
      if c = '{' then do
        eat
        let kvs ← after (visitMap (headerField T) (fueled fun n => value n (Json.maxDepth - 1))
          [str! "typ", str! "alg"]) endMap
        pure (.obj kvs)
      else wrongType T (str! "struct ProofJwtHeader")

/-- jwt/mod.rs:496-538: the fields of the body, in order. -/
def bodyFields (x : Ext) (T : Texts) : List (Str × Reader Json) :=
  [(str! "iss", option (readText T)), (str! "aud", readText T), (str! "sub", option (readText T)),
   (str! "iat", readTime x T), (str! "nonce", readText T), (str! "nbf", option (readTime x T)),
   (str! "exp", option (readTime x T))]

/-- The reader of a field. -/
def bodyField (x : Ext) (T : Texts) (k : Str) : Option (Reader Json) :=
  ((bodyFields x T).find? fun p => p.1 == k).map Prod.snd

/-- An unknown member of the body: `IgnoredAny`. -/
def ignored : Reader Json := do
  fueled skip
  pure .null

/-- jwt/mod.rs:496-538 `ProofJwtBody: Deserialize`. -/
def readBody (x : Ext) (T : Texts) : Reader Json :=
  settle do
    match ← ws with
    | none => ahead eofValue
    | some c =>
      if c = '[' then do
        eat
        let vs ← after (visitSeq (str! "ProofJwtBody") 7 0 ((bodyFields x T).map Prod.snd)) endSeq
        pure (.arr vs)
      else if c = '{' then do
        eat
        let kvs ← after (visitMap (bodyField x T) ignored [str! "aud", str! "iat", str! "nonce"]) endMap
        pure (.obj kvs)
      else wrongType T (str! "struct ProofJwtBody")

/-- jwt/mod.rs:98 `serde_json::from_slice::<ProofJwtHeader>`: the error's `to_string()`. -/
def headerReport (T : Texts) (b : Bytes) : Option Str := report (document (readHeader T)) b

/-- jwt/mod.rs:99 `serde_json::from_slice::<ProofJwtBody>`: the error's `to_string()`. -/
def bodyReport (x : Ext) (T : Texts) (b : Bytes) : Option Str := report (document (readBody x T)) b

/-- The externals with the messages of JSON errors (validate.rs:30-36); a text without error has none, and the
message for it is not used. -/
def withJson (x : Ext) (T : Texts) : Ext :=
  { x with
    headerMsg := fun b => (headerReport T b).getD []
    bodyMsg := fun b => (bodyReport x T b).getD [] }

end Oid4vci
