import Verif.Model.Validate
import Verif.Base.Json

/-!
validate.rs:38-44: errors of serde_path_to_error, an error of serde_json and the path of the value it is about. The
crate offers the conversion to its users and does not use it itself. From serde_path_to_error 0.1.11 (`Path: Display`,
`Segment: Display`, `Error: Display`); which paths its errors leave out, as nothing is known of them, is a parameter.
-/

namespace Oid4vci

/-- serde_path_to_error `Segment`. -/
inductive Segment where
  | seq (index : Nat)
  | map (key : Str)
  | enum (variant : Str)
  | unknown
deriving DecidableEq, Repr

/-- `Segment: Display`. -/
def Segment.text : Segment → Str
  | seq i => '[' :: (Json.natDigits i ++ [']'])
  | map k => k
  | enum v => v
  | unknown => ['?']

/-- A segment after another one: a dot in front unless it is an index. -/
def Segment.next : Segment → Str
  | seq i => (seq i).text
  | s => '.' :: s.text

/-- `Path: Display`. -/
def pathText : List Segment → Str
  | [] => ['.']
  | s :: ss => s.text ++ ss.flatMap Segment.next

/-- `Error: Display`; `skips` are the paths that are left out. -/
def pathErrorText (skips : List Segment → Bool) (path : List Segment) (original : Str) : Str :=
  if skips path then original else pathText path ++ (str! ": " ++ original)

/-- validate.rs:38-44 `From<serde_path_to_error::Error<serde_json::Error>>`. -/
def ValidationError.ofPath (skips : List Segment → Bool) (path : List Segment) (original : Str) : ValidationError :=
  .any (pathErrorText skips path original)

end Oid4vci
