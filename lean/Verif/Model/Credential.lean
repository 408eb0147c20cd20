import Verif.Base.Serde
import Verif.Base.Base64
import Verif.Model.Validate

/-! types/credential.rs -/

namespace Oid4vci

open Serde

/-- types/credential.rs:11-19 `LinkedDataContext`. A `serde_json::Value` is a `Json` in normal form
(see `Serde.value`). -/
inductive LinkedDataContext where
  | string (s : Str)
  | map (m : HMap Json)
deriving DecidableEq, Repr

/-- types/credential.rs:11-12 derived `Serialize`, untagged. -/
def LinkedDataContext.ser : LinkedDataContext → Json
  | .string s => .str s
  | .map m => serMap id m

/-- types/credential.rs:11-12 derived `Deserialize`, untagged: variants are tried in order. -/
def LinkedDataContext.de (j : Json) : Option LinkedDataContext :=
  match Serde.string j with
  | some s => some (.string s)
  | none => (hmap (fun j => some (value j)) j).map .map

/-- types/credential.rs:145-157 `CredentialSubjectDisplay`. -/
structure CredentialSubjectDisplay where
  name : Option Str
  locale : Option Str
deriving DecidableEq, Repr

/-- types/credential.rs:146-157 derived `Serialize`. -/
def CredentialSubjectDisplay.ser (d : CredentialSubjectDisplay) : Json :=
  .obj (skipNone (str! "name") .str d.name ++ skipNone (str! "locale") .str d.locale)

/-- types/credential.rs:146-157 derived `Deserialize`. -/
def CredentialSubjectDisplay.de (j : Json) : Option CredentialSubjectDisplay :=
  match struct [str! "name", str! "locale"] j with
  | some [name, locale] => do
    let name ← opt Serde.string name
    let locale ← opt Serde.string locale
    some ⟨name, locale⟩
  | _ => none

/-- types/credential.rs:124-143 `CredentialSubject`. -/
structure CredentialSubject where
  mandatory : Option Bool
  valueType : Option Str
  display : Option (List CredentialSubjectDisplay)
deriving DecidableEq, Repr

/-- types/credential.rs:124-143 derived `Serialize`, camelCase. -/
def CredentialSubject.ser (c : CredentialSubject) : Json :=
  .obj (skipNone (str! "mandatory") .bool c.mandatory
    ++ skipNone (str! "valueType") .str c.valueType
    ++ skipNone (str! "display") (serVec CredentialSubjectDisplay.ser) c.display)

/-- types/credential.rs:124-143 derived `Deserialize`. -/
def CredentialSubject.de (j : Json) : Option CredentialSubject :=
  match struct [str! "mandatory", str! "valueType", str! "display"] j with
  | some [mandatory, valueType, display] => do
    let mandatory ← opt Serde.bool mandatory
    let valueType ← opt Serde.string valueType
    let display ← opt (vec CredentialSubjectDisplay.de) display
    some ⟨mandatory, valueType, display⟩
  | _ => none

/-- types/credential.rs:23-119 `CredentialFormatProfile`. -/
inductive CredentialFormatProfile where
  | jwtVcJson (types : List Str) (credentialSubject : Option (HMap CredentialSubject))
      (order : Option (List Str))
  | jwtVcJsonLd (types : List Str) (credentialSubject : Option (HMap CredentialSubject))
      (order : Option (List Str))
  | ldpVc (context : List LinkedDataContext) (types : List Str)
      (credentialSubject : Option (HMap CredentialSubject)) (order : Option (List Str))
  | msoMdoc (doctype : Str) (claims : Option (HMap CredentialSubject)) (order : Option (List Str))
deriving DecidableEq, Repr

namespace CredentialFormatProfile

/-- types/credential.rs:195-204 `get_format_name`. -/
def getFormatName : CredentialFormatProfile → Str
  | jwtVcJson .. => str! "jwt_vc_json"
  | jwtVcJsonLd .. => str! "jwt_vc_json-ld"
  | ldpVc .. => str! "ldp_vc"
  | msoMdoc .. => str! "mso_mdoc"

/-- types/credential.rs:159-163 `validate`. -/
def validate (_ : CredentialFormatProfile) : ValidationResult Unit := .ok ()

/-- The variants' serde names, in order (types/credential.rs:29,52,74,101). -/
def variantNames : List Str :=
  [str! "jwt_vc_json", str! "jwt_vc_json-ld", str! "ldp_vc", str! "mso_mdoc"]

/-- types/credential.rs:23-119 derived `Serialize`, internally tagged with `format`. -/
def ser : CredentialFormatProfile → Json
  | jwtVcJson types cs order => .obj ((str! "format", .str (str! "jwt_vc_json"))
      :: (str! "types", serVec .str types)
      :: (skipNone (str! "credentialSubject") (serMap CredentialSubject.ser) cs
        ++ skipNone (str! "order") (serVec .str) order))
  | jwtVcJsonLd types cs order => .obj ((str! "format", .str (str! "jwt_vc_json-ld"))
      :: (str! "types", serVec .str types)
      :: (skipNone (str! "credentialSubject") (serMap CredentialSubject.ser) cs
        ++ skipNone (str! "order") (serVec .str) order))
  | ldpVc context types cs order => .obj ((str! "format", .str (str! "ldp_vc"))
      :: (str! "@context", serVec LinkedDataContext.ser context)
      :: (str! "types", serVec .str types)
      :: (skipNone (str! "credentialSubject") (serMap CredentialSubject.ser) cs
        ++ skipNone (str! "order") (serVec .str) order))
  | msoMdoc doctype claims order => .obj ((str! "format", .str (str! "mso_mdoc"))
      :: (str! "doctype", .str doctype)
      :: (skipNone (str! "claims") (serMap CredentialSubject.ser) claims
        ++ skipNone (str! "order") (serVec .str) order))

/-- Content of the variants `JwtVcJson` and `JwtVcJsonLd` (types/credential.rs:30-47,53-68). -/
def deJwt (c : Json) : Option (List Str × Option (HMap CredentialSubject) × Option (List Str)) :=
  match struct [str! "types", str! "credentialSubject", str! "order"] c with
  | some [types, cs, order] => do
    let types ← req (vec Serde.string) types
    let cs ← opt (hmap CredentialSubject.de) cs
    let order ← opt (vec Serde.string) order
    some (types, cs, order)
  | _ => none

/-- Content of the variant `LdpVc` (types/credential.rs:75-95). -/
def deLdp (c : Json) : Option CredentialFormatProfile :=
  match struct [str! "@context", str! "types", str! "credentialSubject", str! "order"] c with
  | some [context, types, cs, order] => do
    let context ← req (vec LinkedDataContext.de) context
    let types ← req (vec Serde.string) types
    let cs ← opt (hmap CredentialSubject.de) cs
    let order ← opt (vec Serde.string) order
    some (ldpVc context types cs order)
  | _ => none

/-- Content of the variant `MsoMdoc` (types/credential.rs:102-118). -/
def deMdoc (c : Json) : Option CredentialFormatProfile :=
  match struct [str! "doctype", str! "claims", str! "order"] c with
  | some [doctype, claims, order] => do
    let doctype ← req Serde.string doctype
    let claims ← opt (hmap CredentialSubject.de) claims
    let order ← opt (vec Serde.string) order
    some (msoMdoc doctype claims order)
  | _ => none

/-- types/credential.rs:23-119 derived `Deserialize`, internally tagged with `format`. `buffered`
tells whether the document is read through serde's `Content` buffer (see `Serde.variant`). -/
def de (buffered : Bool) (j : Json) : Option CredentialFormatProfile :=
  match tagged (str! "format") j with
  | none => none
  | some (t, c) =>
    match variant variantNames buffered t with
    | some 0 => (deJwt c).map fun p => jwtVcJson p.1 p.2.1 p.2.2
    | some 1 => (deJwt c).map fun p => jwtVcJsonLd p.1 p.2.1 p.2.2
    | some 2 => deLdp c
    | some 3 => deMdoc c
    | _ => none

/-- `serde_json::from_str::<CredentialFormatProfile>`: internally tagged, every member is read. -/
def fromJson (s : Str) : Option CredentialFormatProfile := (Json.parse s).bind (de false)

end CredentialFormatProfile

/-- types/credential.rs:168-175 `CredentialFormatProfileOrEncoded`. -/
inductive CredentialFormatProfileOrEncoded where
  | credentialFormatProfile (c : CredentialFormatProfile)
  | encoded (s : Str)
deriving DecidableEq, Repr

namespace CredentialFormatProfileOrEncoded

/-- types/credential.rs:168 derived `Serialize`, externally tagged. -/
def ser : CredentialFormatProfileOrEncoded → Json
  | credentialFormatProfile c => .obj [(str! "CredentialFormatProfile", c.ser)]
  | encoded s => .obj [(str! "Encoded", .str s)]

/-- types/credential.rs:168 derived `Deserialize`, externally tagged: exactly one member. -/
def de : Json → Option CredentialFormatProfileOrEncoded
  | .obj [(k, v)] =>
    if k = str! "CredentialFormatProfile" then
      (CredentialFormatProfile.de false v).map credentialFormatProfile
    else if k = str! "Encoded" then (Serde.string v).map encoded
    else none
  | _ => none

/-- types/credential.rs:177-190 `TryFrom<CredentialFormatProfile>`. `serde_json::to_string` cannot
fail on this type (string keys, no fallible `Serialize`), so the `?` on line 185 is not modelled. -/
def tryFrom (c : CredentialFormatProfile) : ValidationResult CredentialFormatProfileOrEncoded :=
  match c with
  | .msoMdoc .. | .jwtVcJson .. | .jwtVcJsonLd .. =>
    .ok (encoded (base64urlEncode (utf8Encode c.ser.print)))
  | .ldpVc .. => .ok (credentialFormatProfile c)

end CredentialFormatProfileOrEncoded

end Oid4vci
