import Verif.Base.Skip
import Verif.Model.Errors

/-! jwt/mod.rs -/

namespace Oid4vci

open Serde

/-- jwt/mod.rs:13-64 `ProofJwtAlgorithm`. -/
inductive ProofJwtAlgorithm where
  | HS256 | HS384 | HS512 | RS256 | RS384 | RS512 | ES256 | ES384 | ES512 | PS256 | PS384 | PS512
  | EdDSA | ES256K | ECDHES | none
deriving DecidableEq, Repr

namespace ProofJwtAlgorithm

/-- All variants, in order. -/
def all : List ProofJwtAlgorithm :=
  [HS256, HS384, HS512, RS256, RS384, RS512, ES256, ES384, ES512, PS256, PS384, PS512, EdDSA,
   ES256K, ECDHES, none]

/-- jwt/mod.rs:13-64: the serde names (`ECDH-ES` and `none` are renamed). -/
def name : ProofJwtAlgorithm → Str
  | HS256 => str! "HS256"
  | HS384 => str! "HS384"
  | HS512 => str! "HS512"
  | RS256 => str! "RS256"
  | RS384 => str! "RS384"
  | RS512 => str! "RS512"
  | ES256 => str! "ES256"
  | ES384 => str! "ES384"
  | ES512 => str! "ES512"
  | PS256 => str! "PS256"
  | PS384 => str! "PS384"
  | PS512 => str! "PS512"
  | EdDSA => str! "EdDSA"
  | ES256K => str! "ES256K"
  | ECDHES => str! "ECDH-ES"
  | none => str! "none"

/-- jwt/mod.rs:13 derived `Serialize`. -/
def ser (a : ProofJwtAlgorithm) : Json := .str a.name

/-- The variant with a given serde name. -/
def ofName (s : Str) : Option ProofJwtAlgorithm := all.find? fun a => a.name == s

/-- jwt/mod.rs:13 derived `Deserialize`: the name as a string; serde_json also reads a unit variant
from `{"<name>": null}`. -/
def de : Json → Option ProofJwtAlgorithm
  | .str s => ofName s
  | .obj [(k, .null)] => ofName k
  | _ => Option.none

end ProofJwtAlgorithm

/-- jwt/mod.rs:475-492 `ProofJwtAdditionalHeader`. -/
inductive ProofJwtAdditionalHeader where
  | keyId (kid : Str)
  | jwk (jwk : Str)
  | x5c (x5c : Str)
deriving DecidableEq, Repr

/-- jwt/mod.rs:563-575 (not called by `ProofJwtHeader::validate`). -/
def ProofJwtAdditionalHeader.validate : ProofJwtAdditionalHeader → ValidationResult Unit
  | keyId _ => .ok ()
  | jwk _ => .err (.any (str! "JWK is not supported as key type in the JWT header"))
  | x5c _ => .err (.any (str! "X5c is not supported as key type in the JWT header"))

/-- jwt/mod.rs:318-332 `ProofJwtHeader`. -/
structure ProofJwtHeader where
  typ : Str
  alg : ProofJwtAlgorithm
  additionalHeader : Option ProofJwtAdditionalHeader
deriving DecidableEq, Repr

/-- jwt/mod.rs:496-538 `ProofJwtBody`. -/
structure ProofJwtBody where
  issuer : Option Str
  audience : Str
  subject : Option Str
  issuedAt : Time
  nonce : Str
  notBefore : Option Time
  expiresAt : Option Time
deriving DecidableEq, Repr

/-- jwt/mod.rs:68-78 `ProofJwt`. -/
structure ProofJwt where
  header : ProofJwtHeader
  body : ProofJwtBody
  signature : Option Str
deriving DecidableEq, Repr

/-! ### Serialisation -/

/-- jwt/mod.rs:475-492: the member which the flattened enum contributes. -/
def ProofJwtAdditionalHeader.member : ProofJwtAdditionalHeader → Str × Json
  | keyId s => (str! "kid", .str s)
  | jwk s => (str! "jwk", .str s)
  | x5c s => (str! "x5c", .str s)

/-- jwt/mod.rs:318-332 derived `Serialize`. -/
def ProofJwtHeader.ser (h : ProofJwtHeader) : Json :=
  .obj ([(str! "typ", .str h.typ), (str! "alg", h.alg.ser)]
    ++ (h.additionalHeader.map ProofJwtAdditionalHeader.member).toList)

/-- jwt/mod.rs:475-492 derived `Deserialize`, flattened (serde's `FlatMapDeserializer::
deserialize_enum`): the first member, in document order, whose key is a variant name is used. -/
def ProofJwtAdditionalHeader.deFlat : List (Str × Json) → Option ProofJwtAdditionalHeader
  | [] => none
  | (k, v) :: r =>
    if k = str! "kid" then (Serde.string v).map keyId
    else if k = str! "jwk" then (Serde.string v).map jwk
    else if k = str! "x5c" then (Serde.string v).map x5c
    else deFlat r

/-- jwt/mod.rs:318-332 derived `Deserialize`. A flattened `Option` swallows errors: it is `None` when
the inner type does not deserialise. -/
def ProofJwtHeader.de (j : Json) : Option ProofJwtHeader :=
  match structFlat [str! "typ", str! "alg"] j with
  | some ([typ, alg], rest) => do
    let typ ← req Serde.string typ
    let alg ← req ProofJwtAlgorithm.de alg
    some ⟨typ, alg, ProofJwtAdditionalHeader.deFlat rest⟩
  | _ => none

/-- `DateTime<Utc>: Serialize`. -/
def serTime (x : Ext) (t : Time) : Json := .str (x.showTime t)

/-- `DateTime<Utc>: Deserialize`: from a string only. -/
def deTime (x : Ext) : De Time
  | .str s => x.parseTime s
  | _ => none

/-- jwt/mod.rs:496-538 derived `Serialize`. -/
def ProofJwtBody.ser (x : Ext) (b : ProofJwtBody) : Json :=
  .obj (skipNone (str! "iss") .str b.issuer
    ++ [(str! "aud", .str b.audience), (str! "sub", serOpt .str b.subject),
        (str! "iat", serTime x b.issuedAt), (str! "nonce", .str b.nonce)]
    ++ skipNone (str! "nbf") (serTime x) b.notBefore
    ++ skipNone (str! "exp") (serTime x) b.expiresAt)

/-- jwt/mod.rs:496-538 derived `Deserialize`. -/
def ProofJwtBody.de (x : Ext) (j : Json) : Option ProofJwtBody :=
  match struct [str! "iss", str! "aud", str! "sub", str! "iat", str! "nonce", str! "nbf",
      str! "exp"] j with
  | some [iss, aud, sub, iat, nonce, nbf, exp] => do
    let iss ← opt Serde.string iss
    let aud ← req Serde.string aud
    let sub ← opt Serde.string sub
    let iat ← req (deTime x) iat
    let nonce ← req Serde.string nonce
    let nbf ← opt (deTime x) nbf
    let exp ← opt (deTime x) exp
    some ⟨iss, aud, sub, iat, nonce, nbf, exp⟩
  | _ => none

/-- jwt/mod.rs:99 `serde_json::from_slice::<ProofJwtBody>`: unknown members are skipped. -/
def ProofJwtBody.fromSlice (x : Ext) (b : Bytes) : Option ProofJwtBody :=
  (Json.looseSlice [str! "iss", str! "aud", str! "sub", str! "iat", str! "nonce", str! "nbf",
    str! "exp"] b).bind (ProofJwtBody.de x)

namespace ProofJwt

/-- jwt/mod.rs:80-107 `FromStr for ProofJwt`. -/
def fromStr (x : Ext) (s : Str) : ValidationResult ProofJwt :=
  match splitOn '.' s with
  | [] => .err (.any (str! "No header found in the `JWT`"))
  | [_] => .err (.any (str! "No body found in the `JWT`"))
  | header :: body :: rest =>
    let signature := rest.head?
    match base64urlDecode header with
    | none => .err (.any (x.base64Msg header))
    | some hb =>
      match base64urlDecode body with
      | none => .err (.any (x.base64Msg body))
      | some bb =>
        match (Json.parseSlice hb).bind ProofJwtHeader.de with
        | none => .err (.any (x.headerMsg hb))
        | some h =>
          match ProofJwtBody.fromSlice x bb with
          | none => .err (.any (x.bodyMsg bb))
          | some b => .ok ⟨h, b, signature⟩

/-- jwt/mod.rs:109-137 `TryInto<String> for &ProofJwt`. Serialising header and body cannot fail (all
keys are strings, no fallible `Serialize` is involved), so the error branches are not modelled. -/
def toStr (x : Ext) (j : ProofJwt) : Str :=
  joinWith '.' ([j.header.ser.print, (j.body.ser x).print] ++ j.signature.toList)

/-- jwt/mod.rs:146-168 `verify`; `now` is `Utc::now()`. -/
def verify (j : ProofJwt) (now : Time) : JwtResult Unit := do
  match j.body.notBefore with
  | some nb => if now < nb then .err (.notYetValid nb now) else .ok ()
  | none => .ok ()
  match j.body.expiresAt with
  | some ea => if now > ea then .err (.notValidAnymore ea now) else .ok ()
  | none => .ok ()

/-- jwt/mod.rs:178-207 `extract_did`. -/
def extractDid (x : Ext) (j : ProofJwt) : JwtResult (Option Str) :=
  match j.header.additionalHeader with
  | some (.keyId kid) =>
    match x.didUrl kid with
    | .error m => .err (.unableToTransformIntoDid kid m)
    | .ok d => .ok (some d.did)
  | some (.jwk k) => .err (.unsupportedKeyTypeInJwtHeader (str! "jwk") k)
  | some (.x5c k) => .err (.unsupportedKeyTypeInJwtHeader (str! "x5c") k)
  | none => .ok none

end ProofJwt

namespace ProofJwtHeader

/-- jwt/mod.rs:422-471 `jwk_to_public_key_bytes`. `serde_json::to_string(&alg)` (line 424) is the
quoted algorithm name and cannot fail. -/
def jwkToPublicKeyBytes (jwk : Jwk) : JwtResult Bytes :=
  let alg := jwk.algorithm.getD SsiAlg.default
  let algName := Json.printStr alg.name
  match jwk.params with
  | .ec px =>
    if alg = SsiAlg.edDSA then Res.okOr px .edDSAHasNoXCoordinate
    else .err (.unsupportedAlgorithm algName)
  | .okp pk => .ok pk
  | .other => .err (.unsupportedAlgorithm algName)

/-- jwt/mod.rs:341-410 `extract_key_and_alg`. -/
def extractKeyAndAlg (x : Ext) (h : ProofJwtHeader) (doc : Option x.Doc) :
    JwtResult (Bytes × ProofJwtAlgorithm) :=
  match h.additionalHeader with
  | some (.keyId kid) =>
    match x.didUrl kid with
    | .error m => .err (.unableToTransformIntoDid kid m)
    | .ok did =>
      match doc with
      | none => .err .noDidDocumentProvidedForKidAsDid
      | some d =>
        match x.select d did with
        | .error m => .err (.unableToResolveDidInDidDocument (x.didUrlDisplay did) m)
        | .verificationMethod vm =>
          match x.getJwk vm with
          | .error m => .err (.unableToMapVerificationMethodToJwk m)
          | .ok jwk => do
            let pk ← jwkToPublicKeyBytes jwk
            .ok (pk, h.alg)
        | .other => .panic
  | some (.jwk k) =>
    match x.parseJwk k with
    | .error m => .err (.unableToTransformIntoJoseItem k m)
    | .ok jwk => do
      let pk ← jwkToPublicKeyBytes jwk
      .ok (pk, h.alg)
  | some (.x5c k) => .err (.unsupportedKeyTypeInJwtHeader (str! "x5c") k)
  | none => .err .noKeyFoundInProof

/-- types/credential_request.rs:10 `OPENID4VCI_PROOF_TYPE`. -/
def openid4vciProofType : Str := str! "openid4vci-proof+jwt"

/-- jwt/mod.rs:549-561 `validate`. -/
def validate (h : ProofJwtHeader) : ValidationResult Unit :=
  if toLowercase h.typ ≠ openid4vciProofType then
    .err (.any (str! "jwt header `typ` MUST of of value `openid4vci-proof+jwt`"))
  else .ok ()

end ProofJwtHeader

/-- jwt/mod.rs:577-581. -/
def ProofJwtBody.validate (_ : ProofJwtBody) : ValidationResult Unit := .ok ()

namespace ProofJwt

/-- jwt/mod.rs:540-547 `validate`. -/
def validate (j : ProofJwt) : ValidationResult Unit := do
  j.header.validate
  j.body.validate
  .ok ()

/-- jwt/mod.rs:214-219 `extract_key_and_alg`. -/
def extractKeyAndAlg (x : Ext) (j : ProofJwt) (doc : Option x.Doc) :
    JwtResult (Bytes × ProofJwtAlgorithm) := j.header.extractKeyAndAlg x doc

/-- jwt/mod.rs:229-243 `to_signable_message`. The indexing `parts[0]`, `parts[1]` is in range when
there are two dots. -/
def toSignableMessage (x : Ext) (j : ProofJwt) : JwtResult Bytes :=
  let message := j.toStr x
  if countChar '.' message = 2 then
    match splitOn '.' message with
    | p0 :: p1 :: _ => .ok (utf8Encode (p0 ++ '.' :: p1))
    | _ => .panic
  else .ok (utf8Encode message)

/-- jwt/mod.rs:250-265 `extract_signature`. -/
def extractSignature (x : Ext) (j : ProofJwt) : JwtResult Bytes :=
  let s := j.toStr x
  match (splitN 3 '.' s)[2]? with
  | none => .err (.signatureNotInJwt s)
  | some sig => .ok (utf8Encode sig)

/-- jwt/mod.rs:272-281 `check_nonce`. -/
def checkNonce (j : ProofJwt) (nonce : Option Str) : JwtResult Unit :=
  if some j.body.nonce = nonce then .ok () else .err (.nonceMismatch nonce j.body.nonce)

/-- jwt/mod.rs:288-297 `check_iss`. -/
def checkIss (j : ProofJwt) (iss : Option Str) : JwtResult Unit :=
  if j.body.issuer = iss then .ok () else .err (.issuerMismatch iss j.body.issuer)

/-- jwt/mod.rs:304-313 `check_aud`. -/
def checkAud (j : ProofJwt) (url : Str) : JwtResult Unit :=
  if j.body.audience = url then .ok () else .err (.audienceMismatch url j.body.audience)

end ProofJwt

end Oid4vci
