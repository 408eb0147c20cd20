import Verif.Base.Skip

/-!
How `serde_json::from_str` reads a text into a derived type. The deserialiser follows the type: the values
of fields and elements are read, the values of members which a struct without `flatten` does not have are
skipped (`IgnoredAny`, see `Base/Skip.lean`), those of a struct with `flatten` are kept (serde's `Content`).
Whatever is buffered (`untagged`, internally tagged enums, flattened fields) or is not a struct is read
completely.

Simplification: a value that does not fit the type is read to its end before it is refused, so the two steps
(the text as a document, the document as a value of the type) are separate. Both refuse the same texts.
-/

namespace Oid4vci

/-- How a type walks through a document: everything is read, the elements of an array are read by a type, the
members of an object are fields and others are skipped or kept. -/
inductive Shape where
  | any
  | vec (element : Shape)
  | struct (fields : List (Str × Shape))
  | flat (fields : List (Str × Shape))

namespace Shape

/-- How the element at a position is read: serde reads structs from arrays as well (`visit_seq`). -/
def item : Shape → Nat → Shape
  | vec e, _ => e
  | struct fs, i => match fs[i]? with
    | some p => p.2
    | none => any
  | _, _ => any

/-- How the value of a member is read; `none`: it is skipped. -/
def member : Shape → Str → Option Shape
  | struct fs, k => fs.lookup k
  | flat fs, k => some ((fs.lookup k).getD any)
  | _, _ => some any

end Shape

namespace Json

mutual
/-- A value, like `parseValue`, with skipped members. -/
def seeValue : (fuel d : Nat) → Shape → Str → Option (Json × Str)
  | 0, _, _, _ => none
  | fuel + 1, d, σ, s =>
    match skipWs s with
    | [] => none
    | c :: r =>
      if c = '"' then (parseStr r).map fun p => (str p.1, p.2)
      else if c = '[' then
        match d with
        | 0 => none
        | d + 1 =>
          match skipWs r with
          | ']' :: r' => some (arr [], r')
          | _ =>
            match seeValue fuel d (σ.item 0) r with
            | none => none
            | some (x, r') => (seeElems fuel d σ 1 r').map fun p => (arr (x :: p.1), p.2)
      else if c = '{' then
        match d with
        | 0 => none
        | d + 1 =>
          match skipWs r with
          | '}' :: r' => some (obj [], r')
          | _ =>
            match seeMember fuel d σ r with
            | none => none
            | some (kv, r') => (seeMembers fuel d σ r').map fun p => (obj (kv :: p.1), p.2)
      else if c = '-' then readNumber true r
      else if isDigit c then readNumber false (c :: r)
      else
        match c :: r with
        | 'n' :: 'u' :: 'l' :: 'l' :: r => some (null, r)
        | 't' :: 'r' :: 'u' :: 'e' :: r => some (bool true, r)
        | 'f' :: 'a' :: 'l' :: 's' :: 'e' :: r => some (bool false, r)
        | _ => none
/-- The array elements from position `i` on, up to the closing bracket. -/
def seeElems : (fuel d : Nat) → Shape → (i : Nat) → Str → Option (List Json × Str)
  | 0, _, _, _, _ => none
  | fuel + 1, d, σ, i, s =>
    match skipWs s with
    | ']' :: r => some ([], r)
    | ',' :: r =>
      match seeValue fuel d (σ.item i) r with
      | none => none
      | some (x, r') => (seeElems fuel d σ (i + 1) r').map fun p => (x :: p.1, p.2)
    | _ => none
/-- One object member: its name is read, its value is read or skipped and recorded as `null`. -/
def seeMember : (fuel d : Nat) → Shape → Str → Option ((Str × Json) × Str)
  | 0, _, _, _ => none
  | fuel + 1, d, σ, s =>
    match skipWs s with
    | '"' :: r =>
      match parseStr r with
      | none => none
      | some (k, r) =>
        match skipWs r with
        | ':' :: r =>
          match σ.member k with
          | some τ => (seeValue fuel d τ r).map fun p => ((k, p.1), p.2)
          | none => (skipValue fuel r).map fun r' => ((k, null), r')
        | _ => none
    | _ => none
/-- The object members after the first one, up to the closing brace. -/
def seeMembers : (fuel d : Nat) → Shape → Str → Option (List (Str × Json) × Str)
  | 0, _, _, _ => none
  | fuel + 1, d, σ, s =>
    match skipWs s with
    | '}' :: r => some ([], r)
    | ',' :: r =>
      match seeMember fuel d σ r with
      | none => none
      | some (kv, r') => (seeMembers fuel d σ r').map fun p => (kv :: p.1, p.2)
    | _ => none
end

/-- `serde_json::from_str` into a type of the given shape, up to the conversion of the document: skipped
values are `null` in it. -/
def see (σ : Shape) (s : Str) : Option Json :=
  match seeValue (4 * s.length + 4) maxDepth σ s with
  | some (j, r) => if skipWs r = [] then some j else none
  | none => none

end Json

end Oid4vci
