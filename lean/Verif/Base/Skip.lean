import Verif.Base.Json

/-!
How `serde_json::from_slice` reads a struct without `flatten` (jwt/mod.rs:99 `ProofJwtBody`). The
deserialiser works on the bytes: names of members and values of fields are read strictly, the values of
unknown members are skipped (`IgnoredAny`, `Deserializer::ignore_value`). Skipping follows the JSON
grammar but does not check that strings are UTF-8 or that surrogates come in pairs, and has no recursion
limit.

Simplification: serde_json keeps an explicit stack of open brackets while skipping; here the skipper is
recursive, and the value of a field is first delimited by skipping and then read. Both accept the same
bytes, since a value that can be read ends where skipping it ends.
-/

namespace Oid4vci

namespace Json

/-- The bytes, one character each (U+0000 to U+00FF). -/
def octets (b : Bytes) : Str := b.map fun o => Char.ofNat o.toNat

/-- Back to bytes. -/
def unoctets (s : Str) : Bytes := s.map fun c => UInt8.ofNat c.toNat

/-- The text before the rest `r` of `s`. -/
def taken (s r : Str) : Str := s.take (s.length - r.length)

/-- serde_json `SliceRead::ignore_str` and `ignore_escape`, after the opening quote: the rest. -/
def skipStr : Str → Option Str
  | [] => none
  | c :: r =>
    if c = '"' then some r
    else if c = '\\' then
      match r with
      | 'u' :: a :: b :: c :: d :: r => if (hex4 a b c d).isSome then skipStr r else none
      | e :: r => if (simpleEscape e).isSome then skipStr r else none
      | [] => none
    else if c.toNat < 32 then none
    else skipStr r

mutual
/-- serde_json `ignore_value`: the rest after one value. -/
def skipValue : (fuel : Nat) → Str → Option Str
  | 0, _ => none
  | fuel + 1, s =>
    match skipWs s with
    | [] => none
    | c :: r =>
      if c = '"' then skipStr r
      else if c = '[' then
        match skipWs r with
        | ']' :: r' => some r'
        | _ =>
          match skipValue fuel r with
          | none => none
          | some r' => skipElems fuel r'
      else if c = '{' then
        match skipWs r with
        | '}' :: r' => some r'
        | _ =>
          match skipMember fuel r with
          | none => none
          | some r' => skipMembers fuel r'
      else if c = '-' then (parseNumber true r).map Prod.snd
      else if isDigit c then (parseNumber false (c :: r)).map Prod.snd
      else
        match c :: r with
        | 'n' :: 'u' :: 'l' :: 'l' :: r => some r
        | 't' :: 'r' :: 'u' :: 'e' :: r => some r
        | 'f' :: 'a' :: 'l' :: 's' :: 'e' :: r => some r
        | _ => none
/-- The elements after the first one. -/
def skipElems : (fuel : Nat) → Str → Option Str
  | 0, _ => none
  | fuel + 1, s =>
    match skipWs s with
    | ']' :: r => some r
    | ',' :: r =>
      match skipValue fuel r with
      | none => none
      | some r' => skipElems fuel r'
    | _ => none
/-- One member. -/
def skipMember : (fuel : Nat) → Str → Option Str
  | 0, _ => none
  | fuel + 1, s =>
    match skipWs s with
    | '"' :: r =>
      match skipStr r with
      | none => none
      | some r =>
        match skipWs r with
        | ':' :: r => skipValue fuel r
        | _ => none
    | _ => none
/-- The members after the first one. -/
def skipMembers : (fuel : Nat) → Str → Option Str
  | 0, _ => none
  | fuel + 1, s =>
    match skipWs s with
    | '}' :: r => some r
    | ',' :: r =>
      match skipMember fuel r with
      | none => none
      | some r' => skipMembers fuel r'
    | _ => none
end

/-- The name of a member, from its text after the opening quote: `parse_str`, which requires UTF-8. -/
def rawName (raw : Str) : Option Str :=
  match (utf8Decode (unoctets raw)).bind parseStr with
  | some (k, []) => some k
  | _ => none

/-- One member of a struct with the fields `known`: the value of a field is read, any other is skipped
(`IgnoredAny`) and recorded as `null`. -/
def looseMember (known : List Str) (s : Str) : Option ((Str × Json) × Str) :=
  match skipWs s with
  | '"' :: r =>
    match skipStr r with
    | none => none
    | some r1 =>
      match rawName (taken r r1) with
      | none => none
      | some k =>
        match skipWs r1 with
        | ':' :: r2 =>
          match skipValue (r2.length + 1) r2 with
          | none => none
          | some r3 =>
            if k ∈ known then (parseSlice (unoctets (taken r2 r3))).map fun v => ((k, v), r3)
            else some ((k, null), r3)
        | _ => none
  | _ => none

/-- The members after the first one, up to the closing brace. -/
def looseMembers (known : List Str) : (fuel : Nat) → Str → Option (List (Str × Json) × Str)
  | 0, _ => none
  | fuel + 1, s =>
    match skipWs s with
    | '}' :: r => some ([], r)
    | ',' :: r =>
      match looseMember known r with
      | none => none
      | some (kv, r') => (looseMembers known fuel r').map fun p => (kv :: p.1, p.2)
    | _ => none

/-- The members of a struct, after the opening brace. -/
def looseObject (known : List Str) (s : Str) : Option (List (Str × Json) × Str) :=
  match skipWs s with
  | '}' :: r => some ([], r)
  | _ =>
    match looseMember known s with
    | none => none
    | some (kv, r) => (looseMembers known (r.length + 1) r).map fun p => (kv :: p.1, p.2)

/-- `serde_json::from_slice` into a struct with the fields `known`, all of which are read from strings or
`null` (so that the recursion limit inside a field does not matter): an object in which unknown members
have the value `null`, or any other document. -/
def looseSlice (known : List Str) (b : Bytes) : Option Json :=
  match skipWs (octets b) with
  | '{' :: r =>
    match looseObject known r with
    | some (kvs, r') => if skipWs r' = [] then some (obj kvs) else none
    | none => none
  | _ => parseSlice b

end Json

end Oid4vci
