import Verif.Base.Double
import Verif.Base.Utf8

/-!
JSON documents, and the text printer and parser of `serde_json` 1.0.96 as used through
`serde_json::to_string` (jwt/mod.rs:115,122, credential_issuer/mod.rs:243, types/credential.rs:185)
and `serde_json::from_slice` (jwt/mod.rs:98-99).

A number that is not an integer in `-2^63 .. 2^64-1` is an `f64` (`Base/Double.lean`).

The parser here reads every member. serde_json skips those that a non-flattened struct ignores without checking
surrogate pairs, numbers or the recursion limit: `Base/Skip.lean`, `Base/Shape.lean`.
-/

namespace Oid4vci

/-- A JSON document. Objects keep the order of their members and duplicates, as in the text. -/
inductive Json where
  | null
  | bool (b : Bool)
  | num (n : Int)
  | float (d : Double)
  | str (s : Str)
  | arr (xs : List Json)
  | obj (kvs : List (Str × Json))
deriving Repr

namespace Json

mutual
/-- Decidable equality (helper; not part of the modelled code). -/
def decEq : (a b : Json) → Decidable (a = b)
  | .null, .null => isTrue rfl
  | .bool a, .bool b => if h : a = b then isTrue (by rw [h]) else isFalse (by simp [h])
  | .num a, .num b => if h : a = b then isTrue (by rw [h]) else isFalse (by simp [h])
  | .float a, .float b => if h : a = b then isTrue (by rw [h]) else isFalse (by simp [h])
  | .str a, .str b => if h : a = b then isTrue (by rw [h]) else isFalse (by simp [h])
  | .arr a, .arr b =>
    match decEqArr a b with
    | isTrue h => isTrue (by rw [h])
    | isFalse h => isFalse (by simp [h])
  | .obj a, .obj b =>
    match decEqObj a b with
    | isTrue h => isTrue (by rw [h])
    | isFalse h => isFalse (by simp [h])
  | .null, .bool _ | .null, .num _ | .null, .float _ | .null, .str _ | .null, .arr _
  | .null, .obj _ | .bool _, .null | .bool _, .num _ | .bool _, .float _ | .bool _, .str _
  | .bool _, .arr _ | .bool _, .obj _ | .num _, .null | .num _, .bool _ | .num _, .float _
  | .num _, .str _ | .num _, .arr _ | .num _, .obj _ | .float _, .null | .float _, .bool _
  | .float _, .num _ | .float _, .str _ | .float _, .arr _ | .float _, .obj _ | .str _, .null
  | .str _, .bool _ | .str _, .num _ | .str _, .float _ | .str _, .arr _ | .str _, .obj _
  | .arr _, .null | .arr _, .bool _ | .arr _, .num _ | .arr _, .float _ | .arr _, .str _
  | .arr _, .obj _ | .obj _, .null | .obj _, .bool _ | .obj _, .num _ | .obj _, .float _
  | .obj _, .str _ | .obj _, .arr _ => isFalse (by simp)
/-- Helper of `decEq`. -/
def decEqArr : (a b : List Json) → Decidable (a = b)
  | [], [] => isTrue rfl
  | [], _ :: _ => isFalse (by simp)
  | _ :: _, [] => isFalse (by simp)
  | a :: as, b :: bs =>
    match decEq a b, decEqArr as bs with
    | isTrue h, isTrue h' => isTrue (by rw [h, h'])
    | isFalse h, _ => isFalse (by simp [h])
    | _, isFalse h => isFalse (by simp [h])
/-- Helper of `decEq`. -/
def decEqObj : (a b : List (Str × Json)) → Decidable (a = b)
  | [], [] => isTrue rfl
  | [], _ :: _ => isFalse (by simp)
  | _ :: _, [] => isFalse (by simp)
  | (k, a) :: as, (k', b) :: bs =>
    if hk : k = k' then
      match decEq a b, decEqObj as bs with
      | isTrue h, isTrue h' => isTrue (by rw [hk, h, h'])
      | isFalse h, _ => isFalse (by simp [h])
      | _, isFalse h => isFalse (by simp [h])
    else isFalse (by simp [hk])
end

instance : DecidableEq Json := decEq

/-! ### Printer -/

/-- Lower-case hexadecimal digit (serde_json's `HEX_DIGITS`). -/
def hexLower (n : Nat) : Char := if n < 10 then Char.ofNat (48 + n) else Char.ofNat (87 + n)

/-- serde_json's escape table: control characters, `"` and `\`. -/
def escapeChar (c : Char) : Str :=
  if c = '"' then ['\\', '"']
  else if c = '\\' then ['\\', '\\']
  else if c.toNat = 8 then ['\\', 'b']
  else if c.toNat = 12 then ['\\', 'f']
  else if c = '\n' then ['\\', 'n']
  else if c = '\r' then ['\\', 'r']
  else if c = '\t' then ['\\', 't']
  else if c.toNat < 32 then ['\\', 'u', '0', '0', hexLower (c.toNat / 16), hexLower (c.toNat % 16)]
  else [c]

/-- A JSON string literal. -/
def printStr (s : Str) : Str := '"' :: (s.flatMap escapeChar ++ ['"'])

mutual
/-- `serde_json::to_string` of a document: compact, members in order. -/
def print : Json → Str
  | null => str! "null"
  | bool true => str! "true"
  | bool false => str! "false"
  | num n => printInt n
  | float d => printFloat d
  | str s => printStr s
  | arr [] => str! "[]"
  | arr (x :: xs) => '[' :: (print x ++ printElems xs)
  | obj [] => str! "{}"
  | obj ((k, v) :: kvs) => '{' :: (printStr k ++ ':' :: (print v ++ printMembers kvs))
/-- The remaining array elements and the closing bracket. -/
def printElems : List Json → Str
  | [] => [']']
  | x :: xs => ',' :: (print x ++ printElems xs)
/-- The remaining object members and the closing brace. -/
def printMembers : List (Str × Json) → Str
  | [] => ['}']
  | (k, v) :: kvs => ',' :: (printStr k ++ ':' :: (print v ++ printMembers kvs))
end

/-! ### Parser -/

/-- JSON white space. -/
def isWs (c : Char) : Bool := c == ' ' || c == '\n' || c == '\t' || c == '\r'

/-- Skip white space. -/
def skipWs (s : Str) : Str := s.dropWhile isWs

/-- Value of a hexadecimal digit. -/
def hexVal (c : Char) : Option Nat :=
  if 48 ≤ c.toNat ∧ c.toNat ≤ 57 then some (c.toNat - 48)
  else if 65 ≤ c.toNat ∧ c.toNat ≤ 70 then some (c.toNat - 55)
  else if 97 ≤ c.toNat ∧ c.toNat ≤ 102 then some (c.toNat - 87)
  else none

/-- Four hexadecimal digits. -/
def hex4 (a b c d : Char) : Option Nat := do
  let a ← hexVal a
  let b ← hexVal b
  let c ← hexVal c
  let d ← hexVal d
  some (a * 4096 + b * 256 + c * 16 + d)

/-- The single-character escapes. -/
def simpleEscape (c : Char) : Option Char :=
  if c = '"' then some '"'
  else if c = '\\' then some '\\'
  else if c = '/' then some '/'
  else if c = 'b' then some (Char.ofNat 8)
  else if c = 'f' then some (Char.ofNat 12)
  else if c = 'n' then some '\n'
  else if c = 'r' then some '\r'
  else if c = 't' then some '\t'
  else none

/-- The rest of a string literal after the opening quote: its value and the remaining text. Raw
control characters and lone surrogate escapes are errors. -/
def parseStr : Str → Option (Str × Str)
  | [] => none
  | c :: r =>
    if c = '"' then some ([], r)
    else if c = '\\' then
      match r with
      | 'u' :: a :: b :: c :: d :: r =>
        match hex4 a b c d with
        | none => none
        | some n =>
          if 0xDC00 ≤ n ∧ n ≤ 0xDFFF then none
          else if 0xD800 ≤ n ∧ n ≤ 0xDBFF then
            match r with
            | '\\' :: 'u' :: a :: b :: c :: d :: r =>
              match hex4 a b c d with
              | none => none
              | some m =>
                if 0xDC00 ≤ m ∧ m ≤ 0xDFFF then
                  (parseStr r).map fun p =>
                    (Char.ofNat ((n - 0xD800) * 1024 + (m - 0xDC00) + 0x10000) :: p.1, p.2)
                else none
            | _ => none
          else (parseStr r).map fun p => (Char.ofNat n :: p.1, p.2)
      | e :: r =>
        match simpleEscape e with
        | some x => (parseStr r).map fun p => (x :: p.1, p.2)
        | none => none
      | [] => none
    else if c.toNat < 32 then none
    else (parseStr r).map fun p => (c :: p.1, p.2)

/-- Optional exponent: its text and the rest. -/
def parseExp (s : Str) : Option (Str × Str) :=
  match s with
  | e :: r =>
    if e = 'e' ∨ e = 'E' then
      match r with
      | sgn :: r' =>
        if sgn = '+' ∨ sgn = '-' then
          let ds := r'.takeWhile isDigit
          if ds = [] then none else some (e :: sgn :: ds, r'.dropWhile isDigit)
        else
          let ds := r.takeWhile isDigit
          if ds = [] then none else some (e :: ds, r.dropWhile isDigit)
      | [] => none
    else some ([], s)
  | [] => some ([], [])

/-- Optional fraction and exponent: their text and the rest. -/
def parseFrac (s : Str) : Option (Str × Str) :=
  match s with
  | '.' :: r =>
    let ds := r.takeWhile isDigit
    if ds = [] then none
    else (parseExp (r.dropWhile isDigit)).map fun p => ('.' :: (ds ++ p.1), p.2)
  | s => parseExp s

/-- A number as scanned: the value of a 64-bit integer, the text of any other number. -/
inductive Lexical where
  | num (n : Int)
  | float (lexeme : Str)
deriving DecidableEq, Repr

/-- A number without sign. `neg` tells whether a minus sign was read. -/
def parseNumber (neg : Bool) (s : Str) : Option (Lexical × Str) :=
  let ds := s.takeWhile isDigit
  let r := s.dropWhile isDigit
  if ds = [] then none
  else if ds.head? = some '0' ∧ ds ≠ ['0'] then none
  else
    match parseFrac r with
    | none => none
    | some (fr, r') =>
      let lexeme := (if neg then ['-'] else []) ++ ds ++ fr
      let n := digitsVal ds
      if fr ≠ [] then some (.float lexeme, r')
      else if neg then
        if n = 0 ∨ 2 ^ 63 < n then some (.float lexeme, r') else some (.num (-(n : Int)), r')
      else if n < 2 ^ 64 then some (.num n, r') else some (.float lexeme, r')

/-- A number that is read and not skipped. -/
def readNumber (neg : Bool) (s : Str) : Option (Json × Str) :=
  match parseNumber neg s with
  | some (.num n, r) => some (num n, r)
  | some (.float lexeme, r) => (readFloat lexeme).map fun d => (float d, r)
  | none => none

mutual
/-- A value. `fuel` bounds the number of recursive calls (see `parse`), `d` is the remaining
nesting depth (`remaining_depth - 1` of serde_json's deserializer). -/
def parseValue : (fuel d : Nat) → Str → Option (Json × Str)
  | 0, _, _ => none
  | fuel + 1, d, s =>
    match skipWs s with
    | [] => none
    | c :: r =>
      if c = '"' then (parseStr r).map fun p => (str p.1, p.2)
      else if c = '[' then
        match d with
        | 0 => none
        | d + 1 =>
          match skipWs r with
          | ']' :: r' => some (arr [], r')
          | _ =>
            match parseValue fuel d r with
            | none => none
            | some (x, r') => (parseElems fuel d r').map fun p => (arr (x :: p.1), p.2)
      else if c = '{' then
        match d with
        | 0 => none
        | d + 1 =>
          match skipWs r with
          | '}' :: r' => some (obj [], r')
          | _ =>
            match parseMember fuel d r with
            | none => none
            | some (kv, r') => (parseMembers fuel d r').map fun p => (obj (kv :: p.1), p.2)
      else if c = '-' then readNumber true r
      else if isDigit c then readNumber false (c :: r)
      else
        match c :: r with
        | 'n' :: 'u' :: 'l' :: 'l' :: r => some (null, r)
        | 't' :: 'r' :: 'u' :: 'e' :: r => some (bool true, r)
        | 'f' :: 'a' :: 'l' :: 's' :: 'e' :: r => some (bool false, r)
        | _ => none
/-- The array elements after the first one, up to the closing bracket. -/
def parseElems : (fuel d : Nat) → Str → Option (List Json × Str)
  | 0, _, _ => none
  | fuel + 1, d, s =>
    match skipWs s with
    | ']' :: r => some ([], r)
    | ',' :: r =>
      match parseValue fuel d r with
      | none => none
      | some (x, r') => (parseElems fuel d r').map fun p => (x :: p.1, p.2)
    | _ => none
/-- One object member. -/
def parseMember : (fuel d : Nat) → Str → Option ((Str × Json) × Str)
  | 0, _, _ => none
  | fuel + 1, d, s =>
    match skipWs s with
    | '"' :: r =>
      match parseStr r with
      | none => none
      | some (k, r) =>
        match skipWs r with
        | ':' :: r => (parseValue fuel d r).map fun p => ((k, p.1), p.2)
        | _ => none
    | _ => none
/-- The object members after the first one, up to the closing brace. -/
def parseMembers : (fuel d : Nat) → Str → Option (List (Str × Json) × Str)
  | 0, _, _ => none
  | fuel + 1, d, s =>
    match skipWs s with
    | '}' :: r => some ([], r)
    | ',' :: r =>
      match parseMember fuel d r with
      | none => none
      | some (kv, r') => (parseMembers fuel d r').map fun p => (kv :: p.1, p.2)
    | _ => none
end

/-- serde_json's recursion limit: `remaining_depth` starts at 128 and must stay positive, so at most
127 nested arrays and objects are accepted. -/
def maxDepth : Nat := 127

/-- `serde_json::from_str` into a document: one value, then only white space. Every parser call
either consumes a character or is followed by one that does, so `4 * length + 4` fuel suffices. -/
def parse (s : Str) : Option Json :=
  match parseValue (4 * s.length + 4) maxDepth s with
  | some (j, r) => if skipWs r = [] then some j else none
  | none => none

/-- `serde_json::from_slice` into a document. -/
def parseSlice (b : Bytes) : Option Json := (utf8Decode b).bind parse

end Json

end Oid4vci
