import Verif.Base.Skip

/-!
serde_json 1.0.96 as a reader of octets that stops at the first error: the functions of
`Deserializer<SliceRead>` which `serde_json::from_slice` uses for the types of jwt/mod.rs:98-99, with the message
and the place of their errors. `Base/Json.lean` and `Base/Skip.lean` say which texts are read; this file says what
is reported about the others.

Octets are characters U+0000 to U+00FF (`Json.octets`). Simplifications: a string is checked and decoded when its
end is reached, from its source text instead of serde_json's scratch buffer, which is UTF-8 exactly if the source
is; the skipper is recursive instead of keeping a stack of open brackets; integers and exponents are unbounded
except where an overflow ends a number (`expDigits`).
-/

namespace Oid4vci

namespace Reading

open Json

/-- What a reader returns. An error has a message and, once `fix_position` or the reader itself has put it
somewhere, a place: the number of octets that are left after it. `stuck` is running out of fuel. -/
inductive Out (α : Type) where
  | ok (a : α)
  | err (message : Str) (left : Option Nat)
  | stuck
deriving DecidableEq, Repr

/-- A reader: from the octets that are left to a result and the octets that are left then. -/
def Reader (α : Type) := Str → Out α × Str

instance : Monad Reader where
  pure a := fun s => (.ok a, s)
  bind f g := fun s =>
    match f s with
    | (.ok a, r) => g a r
    | (.err m l, r) => (.err m l, r)
    | (.stuck, r) => (.stuck, r)

/-- `SliceRead::peek`. -/
def peek : Reader (Option Char) := fun s => (.ok s.head?, s)

/-- `SliceRead::discard`, `Deserializer::eat_char`. -/
def eat : Reader Unit := fun s => (.ok (), s.tail)

/-- `SliceRead::next`. -/
def next : Reader (Option Char) := fun s => (.ok s.head?, s.tail)

/-- `Deserializer::parse_whitespace`. -/
def ws : Reader (Option Char) := fun s => (.ok (skipWs s).head?, skipWs s)

/-- `Deserializer::error`: an error at the current place. -/
def here {α : Type} (message : Str) : Reader α := fun s => (.err message (some s.length), s)

/-- `Deserializer::peek_error`: an error at the next octet, if there is one. -/
def ahead {α : Type} (message : Str) : Reader α := fun s => (.err message (some (s.length - 1)), s)

/-- `de::Error::custom`: an error without a place. (`make_error` takes a place from a message that ends like one; no
message here ends in that way, as they end in a backquote or in what was expected.) -/
def custom {α : Type} (message : Str) : Reader α := fun s => (.err message none, s)

/-- `Deserializer::fix_position`. -/
def settle {α : Type} (f : Reader α) : Reader α := fun s =>
  match f s with
  | (.err m none, r) => (.err m (some r.length), r)
  | o => o

/-- `match (ret, self.end_map())`: the closing bracket is looked for even after an error. -/
def after {α : Type} (f : Reader α) (close : Reader Unit) : Reader α := fun s =>
  match f s with
  | (.ok a, r) =>
    match close r with
    | (.ok _, r') => (.ok a, r')
    | (.err m l, r') => (.err m l, r')
    | (.stuck, r') => (.stuck, r')
  | (.err m l, r) => (.err m l, (close r).2)
  | (.stuck, r) => (.stuck, r)

/-- A loop out of fuel. -/
def halt {α : Type} : Reader α := fun s => (.stuck, s)

/-- A loop with fuel for the octets that are left. -/
def fueled {α : Type} (loop : Nat → Reader α) : Reader α := fun s => loop (2 * s.length + 2) s

/-! ### Messages (`Display for ErrorCode`) -/

def eofList : Str := str! "EOF while parsing a list"
def eofObject : Str := str! "EOF while parsing an object"
def eofString : Str := str! "EOF while parsing a string"
def eofValue : Str := str! "EOF while parsing a value"
def expectedColon : Str := str! "expected `:`"
def expectedListCommaOrEnd : Str := str! "expected `,` or `]`"
def expectedObjectCommaOrEnd : Str := str! "expected `,` or `}`"
def expectedIdent : Str := str! "expected ident"
def expectedValue : Str := str! "expected value"
def invalidEscape : Str := str! "invalid escape"
def invalidNumber : Str := str! "invalid number"
def outOfRange : Str := str! "number out of range"
def invalidCodePoint : Str := str! "invalid unicode code point"
def controlCharacter : Str := str! "control character (\\u0000-\\u001F) found while parsing a string"
def keyMustBeAString : Str := str! "key must be a string"
def loneSurrogate : Str := str! "lone leading surrogate in hex escape"
def trailingComma : Str := str! "trailing comma"
def trailingCharacters : Str := str! "trailing characters"
def endOfHexEscape : Str := str! "unexpected end of hex escape"
def recursionLimit : Str := str! "recursion limit exceeded"

/-! ### Words, numbers, strings -/

/-- `parse_ident`. -/
def ident : Str → Reader Unit
  | [] => pure ()
  | c :: cs => do
    match ← next with
    | none => here eofValue
    | some x => if x = c then ident cs else here expectedIdent

/-- A run of digits. -/
def digits : Reader Str := fun s => (.ok (s.takeWhile isDigit), s.dropWhile isDigit)

/-- The digits of an exponent after those with the value `acc`, up to one that takes it above `limit`
(`parse_exponent_overflow`). -/
def expDigits (limit : Option Nat) : (fuel : Nat) → (acc : Nat) → Reader Str
  | 0, _ => halt
  | fuel + 1, acc => do
    match ← peek with
    | none => pure []
    | some c =>
      if isDigit c then do
        eat
        let acc := acc * 10 + (c.toNat - 48)
        if limit.any (· < acc) then here outOfRange
        else do
          let cs ← expDigits limit fuel acc
          pure (c :: cs)
      else pure []

/-- Which positive exponents are not read to their end, after the integer digits `ds` and the fraction digits
`fs`: those beyond `i32::MAX`, unless the significand is zero. (Beyond `2^31` digits, where serde_json's
exponents would overflow, those that leave the range for sure.) -/
def expLimit (ds fs : Str) : Option Nat :=
  let p := accumulate 0 ds
  let q := accumulate p.1 fs
  if q.1 = 0 then none else some (max 2147483647 (308 + q.2))

/-- `parse_exponent`, after the integer and fraction digits: the text of the exponent. -/
def exponent (ds fs : Str) : Reader Str := do
  match ← peek with
  | none => pure []
  | some e =>
    if e = 'e' ∨ e = 'E' then do
      eat
      let sign ← (do
        match ← peek with
        | none => pure []
        | some c => if c = '+' ∨ c = '-' then do eat; pure [c] else pure [])
      match ← next with
      | none => here eofValue
      | some c =>
        if isDigit c then do
          let cs ← fueled fun n => expDigits (if sign = ['-'] then none else expLimit ds fs) n (c.toNat - 48)
          pure (e :: (sign ++ c :: cs))
        else here invalidNumber
    else pure []

/-- `parse_number`, `parse_decimal`: fraction and exponent after the integer digits `ds`. -/
def fraction (ds : Str) : Reader Str := do
  match ← peek with
  | none => pure []
  | some c =>
    if c = '.' then do
      eat
      let fs ← digits
      if fs = [] then
        match ← peek with
        | some _ => ahead invalidNumber
        | none => ahead eofValue
      else do
        let e ← exponent ds fs
        pure ('.' :: (fs ++ e))
    else exponent ds []

/-- `parse_integer`: the integer digits. -/
def integer : Reader Str := do
  match ← next with
  | none => here eofValue
  | some c =>
    if c = '0' then
      match ← peek with
      | some x => if isDigit x then ahead invalidNumber else pure ['0']
      | none => pure ['0']
    else if isDigit c then do
      let ds ← digits
      pure (c :: ds)
    else here invalidNumber

/-- `parse_any_number`, after the sign. -/
def number (neg : Bool) : Reader Json := do
  let ds ← integer
  let fr ← fraction ds
  let lexeme := (if neg then ['-'] else []) ++ ds ++ fr
  let n := digitsVal ds
  let float : Reader Json :=
    match readFloat lexeme with
    | some d => pure (.float d)
    | none => here outOfRange
  if fr ≠ [] then float
  else if neg then
    if n = 0 ∨ 2 ^ 63 < n then float else pure (.num (-(n : Int)))
  else if n < 2 ^ 64 then pure (.num n) else float

/-- One digit of `SliceRead::decode_hex_escape`. -/
def hexDigit : Reader (Char × Nat) := do
  match ← next with
  | none => here eofString
  | some c =>
    match hexVal c with
    | some v => pure (c, v)
    | none => here invalidEscape

/-- Four digits: text and value. -/
def hexDigits : Reader (Str × Nat) := do
  let a ← hexDigit
  let b ← hexDigit
  let c ← hexDigit
  let d ← hexDigit
  pure ([a.1, b.1, c.1, d.1], a.2 * 4096 + b.2 * 256 + c.2 * 16 + d.2)

/-- `SliceRead::decode_hex_escape`: with fewer than four octets left it goes to the end. -/
def hexEscape : Reader (Str × Nat) := fun s =>
  if s.length < 4 then (.err eofString (some 0), []) else hexDigits s

/-- `parse_escape`, after the backslash: its text. -/
def escape : Reader Str := do
  match ← next with
  | none => here eofString
  | some 'u' => do
    let h ← hexEscape
    if 0xDC00 ≤ h.2 ∧ h.2 ≤ 0xDFFF then here loneSurrogate
    else if 0xD800 ≤ h.2 ∧ h.2 ≤ 0xDBFF then
      match ← next with
      | none => here eofString
      | some '\\' =>
        match ← next with
        | none => here eofString
        | some 'u' => do
          let l ← hexEscape
          if l.2 < 0xDC00 ∨ 0xDFFF < l.2 then here loneSurrogate
          else pure ('u' :: (h.1 ++ '\\' :: 'u' :: l.1))
        | some _ => here endOfHexEscape
      | some _ => here endOfHexEscape
    else pure ('u' :: h.1)
  | some e => if (simpleEscape e).isSome then pure [e] else here invalidEscape

/-- `parse_str_bytes`, after the opening quote: the text with the closing quote. -/
def scan : (fuel : Nat) → Reader Str
  | 0 => halt
  | fuel + 1 => do
    match ← next with
    | none => here eofString
    | some c =>
      if c = '"' then pure ['"']
      else if c = '\\' then do
        let e ← escape
        let t ← scan fuel
        pure ('\\' :: (e ++ t))
      else if c.toNat < 32 then here controlCharacter
      else do
        let t ← scan fuel
        pure (c :: t)

/-- `SliceRead::parse_str`, after the opening quote. -/
def string : Reader Str := do
  let raw ← fueled scan
  match rawName raw with
  | some v => pure v
  | none => here invalidCodePoint

/-! ### Skipping (`ignore_value`) -/

/-- `ignore_exponent`, if there is one. -/
def skipExponent : Reader Unit := do
  match ← peek with
  | none => pure ()
  | some e =>
    if e = 'e' ∨ e = 'E' then do
      eat
      (do
        match ← peek with
        | none => pure ()
        | some c => if c = '+' ∨ c = '-' then eat else pure ())
      match ← next with
      | none => here invalidNumber
      | some c =>
        if isDigit c then do
          let _ ← digits
          pure ()
        else here invalidNumber
    else pure ()

/-- `ignore_decimal` and what follows. -/
def skipFraction : Reader Unit := do
  match ← peek with
  | none => pure ()
  | some c =>
    if c = '.' then do
      eat
      let fs ← digits
      if fs = [] then ahead invalidNumber else skipExponent
    else skipExponent

/-- `ignore_integer`. -/
def skipNumber : Reader Unit := do
  match ← next with
  | none => here invalidNumber
  | some c =>
    if c = '0' then
      match ← peek with
      | some x => if isDigit x then ahead invalidNumber else skipFraction
      | none => skipFraction
    else if isDigit c then do
      let _ ← digits
      skipFraction
    else here invalidNumber

/-- `ignore_escape`. -/
def skipEscape : Reader Unit := do
  match ← next with
  | none => here eofString
  | some 'u' => do
    let _ ← hexEscape
    pure ()
  | some e => if (simpleEscape e).isSome then pure () else here invalidEscape

/-- `ignore_str`: an unescaped control character is reported where it stands, not after it. -/
def skipChars : (fuel : Nat) → Reader Unit
  | 0 => halt
  | fuel + 1 => do
    match ← peek with
    | none => here eofString
    | some c =>
      if c = '"' then eat
      else if c = '\\' then do
        eat
        skipEscape
        skipChars fuel
      else if c.toNat < 32 then here controlCharacter
      else do
        eat
        skipChars fuel

/-- The name of a skipped member and the colon. -/
def skipKey : Reader Unit := do
  match ← ws with
  | none => ahead eofObject
  | some q =>
    if q = '"' then do
      eat
      fueled skipChars
      match ← ws with
      | none => ahead eofObject
      | some x => if x = ':' then eat else ahead expectedColon
    else ahead keyMustBeAString

mutual
/-- `ignore_value`. -/
def skip : (fuel : Nat) → Reader Unit
  | 0 => halt
  | fuel + 1 => do
    match ← ws with
    | none => ahead eofValue
    | some c =>
      if c = '"' then do eat; fueled skipChars
      else if c = '[' then do eat; skipItems fuel true
      else if c = '{' then do eat; skipPairs fuel true
      else if c = '-' then do eat; skipNumber
      else if isDigit c then skipNumber
      else if c = 'n' then do eat; ident (str! "ull")
      else if c = 't' then do eat; ident (str! "rue")
      else if c = 'f' then do eat; ident (str! "alse")
      else ahead expectedValue
/-- The elements of a skipped array, and its end. -/
def skipItems : (fuel : Nat) → (first : Bool) → Reader Unit
  | 0, _ => halt
  | fuel + 1, first => do
    match ← ws with
    | none => ahead eofList
    | some c =>
      if c = ']' then eat
      else if first then do skip fuel; skipItems fuel false
      else if c = ',' then do eat; skip fuel; skipItems fuel false
      else ahead expectedListCommaOrEnd
/-- The members of a skipped object, and its end. -/
def skipPairs : (fuel : Nat) → (first : Bool) → Reader Unit
  | 0, _ => halt
  | fuel + 1, first => do
    match ← ws with
    | none => ahead eofObject
    | some c =>
      if c = '}' then eat
      else if first = true ∨ c = ',' then do
        if first then pure () else eat
        skipKey
        skip fuel
        skipPairs fuel false
      else ahead expectedObjectCommaOrEnd
end

/-! ### Values (`deserialize_any`) -/

/-- `parse_object_colon`. -/
def colon : Reader Unit := do
  match ← ws with
  | none => ahead eofObject
  | some c => if c = ':' then eat else ahead expectedColon

/-- `end_map`. -/
def endMap : Reader Unit := do
  match ← ws with
  | none => ahead eofObject
  | some c =>
    if c = '}' then eat else if c = ',' then ahead trailingComma else ahead trailingCharacters

/-- `end_seq`. -/
def endSeq : Reader Unit := do
  match ← ws with
  | none => ahead eofList
  | some c =>
    if c = ']' then eat
    else if c = ',' then do
      eat
      match ← ws with
      | none => ahead trailingCharacters
      | some x => if x = ']' then ahead trailingComma else ahead trailingCharacters
    else ahead trailingCharacters

/-- `MapAccess::next_key_seed`: the next name, or `none` in front of the closing brace. -/
def nextKey (first : Bool) : Reader (Option Str) := do
  match ← ws with
  | none => ahead eofObject
  | some c =>
    if c = '}' then pure none
    else if first = true ∨ c = ',' then do
      if first then pure () else eat
      match ← ws with
      | none => ahead eofValue
      | some q =>
        if q = '"' then do
          eat
          let k ← string
          pure (some k)
        else if q = '}' then ahead trailingComma
        else ahead keyMustBeAString
    else ahead expectedObjectCommaOrEnd

/-- `SeqAccess::next_element_seed` up to the element: whether there is one. -/
def nextItem (first : Bool) : Reader Bool := do
  match ← ws with
  | none => ahead eofList
  | some c =>
    if c = ']' then pure false
    else if first then pure true
    else if c = ',' then do
      eat
      match ← ws with
      | none => ahead eofValue
      | some q => if q = ']' then ahead trailingComma else pure true
    else ahead expectedListCommaOrEnd

mutual
/-- `deserialize_any`; `d` is `remaining_depth - 1`. -/
def value : (fuel d : Nat) → Reader Json
  | 0, _ => halt
  | fuel + 1, d => do
    match ← ws with
    | none => ahead eofValue
    | some c =>
      if c = '"' then do
        eat
        let v ← string
        pure (.str v)
      else if c = '[' then
        match d with
        | 0 => ahead recursionLimit
        | d + 1 => do
          eat
          let vs ← after (items fuel d true) endSeq
          pure (.arr vs)
      else if c = '{' then
        match d with
        | 0 => ahead recursionLimit
        | d + 1 => do
          eat
          let kvs ← after (pairs fuel d true) endMap
          pure (.obj kvs)
      else if c = '-' then do eat; number true
      else if isDigit c then number false
      else if c = 'n' then do eat; ident (str! "ull"); pure .null
      else if c = 't' then do eat; ident (str! "rue"); pure (.bool true)
      else if c = 'f' then do eat; ident (str! "alse"); pure (.bool false)
      else ahead expectedValue
/-- The elements of an array. -/
def items : (fuel d : Nat) → (first : Bool) → Reader (List Json)
  | 0, _, _ => halt
  | fuel + 1, d, first => do
    if ← nextItem first then do
      let v ← value fuel d
      let vs ← items fuel d false
      pure (v :: vs)
    else pure []
/-- The members of an object. -/
def pairs : (fuel d : Nat) → (first : Bool) → Reader (List (Str × Json))
  | 0, _, _ => halt
  | fuel + 1, d, first => do
    match ← nextKey first with
    | none => pure []
    | some k => do
      colon
      let v ← value fuel d
      let kvs ← pairs fuel d false
      pure ((k, v) :: kvs)
end

/-! ### Typed values -/

/-- Texts of other libraries that occur in messages. -/
structure Texts where
  /-- `{:?}` of a string -/
  debug : Str → Str
  /-- the message of chrono's error for a string that is not a date-time -/
  time : Str → Str
  /-- what chrono's visitor says it expects -/
  timeExpected : Str

/-- `{}` of an `f64`: the shortest decimal, without exponent. -/
def displayFloat (d : Double) : Str :=
  (if d.neg then ['-'] else []) ++
    if d.mant = 0 then ['0']
    else
      let p := decimalBelow d.mant d.exp 1384
      let ds := natDigits p.1
      let kk := (ds.length : Int) + p.2
      if 0 ≤ p.2 then ds ++ List.replicate p.2.toNat '0'
      else if 0 < kk then ds.take kk.toNat ++ '.' :: ds.drop kk.toNat
      else str! "0." ++ List.replicate (-kk).toNat '0' ++ ds

/-- `de::Error::invalid_type`. -/
def invalidType (unexpected expected : Str) : Str :=
  str! "invalid type: " ++ unexpected ++ str! ", expected " ++ expected

/-- `Display for Unexpected`, for numbers. -/
def unexpectedNumber : Json → Str
  | .num n => str! "integer `" ++ printInt n ++ str! "`"
  | .float d => str! "floating point `" ++ displayFloat d ++ str! "`"
  | _ => []

/-- `peek_invalid_type`: what is there instead of what was expected. -/
def wrongType {α : Type} (T : Texts) (expected : Str) : Reader α :=
  settle do
    match ← peek with
    | none => ahead expectedValue
    | some c =>
      if c = 'n' then do eat; ident (str! "ull"); custom (invalidType (str! "null") expected)
      else if c = 't' then do eat; ident (str! "rue"); custom (invalidType (str! "boolean `true`") expected)
      else if c = 'f' then do eat; ident (str! "alse"); custom (invalidType (str! "boolean `false`") expected)
      else if c = '-' then do
        eat
        let n ← number true
        custom (invalidType (unexpectedNumber n) expected)
      else if isDigit c then do
        let n ← number false
        custom (invalidType (unexpectedNumber n) expected)
      else if c = '"' then do
        eat
        let s ← string
        custom (invalidType (str! "string " ++ T.debug s) expected)
      else if c = '[' then custom (invalidType (str! "sequence") expected)
      else if c = '{' then custom (invalidType (str! "map") expected)
      else ahead expectedValue

/-- `deserialize_str` with a visitor that expects `expected` and continues with `visit`. -/
def visitStr {α : Type} (T : Texts) (expected : Str) (visit : Str → Reader α) : Reader α :=
  settle do
    match ← ws with
    | none => ahead eofValue
    | some c =>
      if c = '"' then do
        eat
        let s ← string
        visit s
      else wrongType T expected

/-- `deserialize_unit`. -/
def unit (T : Texts) : Reader Unit :=
  settle do
    match ← ws with
    | none => ahead eofValue
    | some c => if c = 'n' then do eat; ident (str! "ull") else wrongType T (str! "unit")

/-- `deserialize_option`. -/
def option (f : Reader Json) : Reader Json := do
  match ← ws with
  | some 'n' => do eat; ident (str! "ull"); pure .null
  | _ => f

/-- `OneOf`, the list of names in a message. -/
def oneOf (names : List Str) : Str :=
  match names with
  | [] => []
  | [a] => '`' :: (a ++ ['`'])
  | [a, b] => '`' :: (a ++ str! "` or `" ++ b ++ ['`'])
  | a :: rest => str! "one of `" ++ a ++ '`' :: rest.flatMap fun b => str! ", `" ++ b ++ ['`']

/-- `de::Error::unknown_variant`. -/
def unknownVariant (name : Str) (names : List Str) : Str :=
  str! "unknown variant `" ++ name ++ str! "`, expected " ++ oneOf names

/-- `deserialize_identifier` of a variant's name. -/
def variantName (T : Texts) (names : List Str) : Reader Str :=
  visitStr T (str! "variant identifier") fun s =>
    if s ∈ names then pure s else custom (unknownVariant s names)

/-- `deserialize_enum` for an enum of unit variants: the name, or an object with the name and `null`. -/
def variant (T : Texts) (names : List Str) : Reader Json := do
  match ← ws with
  | none => ahead eofValue
  | some c =>
    if c = '{' then do
      eat
      let k ← variantName T names
      colon
      unit T
      match ← ws with
      | none => here eofObject
      | some x => if x = '}' then do eat; pure (.obj [(k, .null)]) else here expectedValue
    else if c = '"' then do
      let k ← variantName T names
      pure (.str k)
    else ahead expectedValue

/-- `de::Error::duplicate_field`. -/
def duplicateField (k : Str) : Str := str! "duplicate field `" ++ k ++ ['`']

/-- `de::Error::missing_field`. -/
def missingField (k : Str) : Str := str! "missing field `" ++ k ++ ['`']

/-- The loop of a derived `visit_map`: `field` are the readers of the fields, `other` reads anything else. -/
def members (field : Str → Option (Reader Json)) (other : Reader Json) :
    (fuel : Nat) → (first : Bool) → (seen : List Str) → Reader (List (Str × Json))
  | 0, _, _ => halt
  | fuel + 1, first, seen => do
    match ← nextKey first with
    | none => pure []
    | some k =>
      match field k with
      | some f =>
        if k ∈ seen then custom (duplicateField k)
        else do
          colon
          let v ← f
          let kvs ← members field other fuel false (k :: seen)
          pure ((k, v) :: kvs)
      | none => do
        colon
        let v ← other
        let kvs ← members field other fuel false seen
        pure ((k, v) :: kvs)

/-- A derived `visit_map`: then the fields that have to be there. -/
def visitMap (field : Str → Option (Reader Json)) (other : Reader Json) (required : List Str) :
    Reader (List (Str × Json)) := do
  let kvs ← fueled fun n => members field other n true []
  match required.find? fun k => !(kvs.map Prod.fst).contains k with
  | some k => custom (missingField k)
  | none => pure kvs

/-- A derived `visit_seq`: `total` fields in order, `i` of which have been read; `name` is the struct's. -/
def visitSeq (name : Str) (total : Nat) : (i : Nat) → List (Reader Json) → Reader (List Json)
  | _, [] => pure []
  | i, f :: fs => do
    if ← nextItem (i = 0) then do
      let v ← f
      let vs ← visitSeq name total (i + 1) fs
      pure (v :: vs)
    else
      custom (str! "invalid length " ++ natDigits i ++ str! ", expected struct " ++ name ++ str! " with "
        ++ natDigits total ++ str! " elements")

/-- `Deserializer::end` after the value: `from_trait`. -/
def document (f : Reader Json) : Reader Json := do
  let j ← f
  match ← ws with
  | none => pure j
  | some _ => ahead trailingCharacters

/-! ### Places -/

/-- `position_of_index`: line and column after reading these octets. -/
def position : Str → Nat × Nat :=
  List.foldl (fun p c => if c = '\n' then (p.1 + 1, 0) else (p.1, p.2 + 1)) (1, 0)

/-- `Display for Error`. -/
def display (s message : Str) (left : Nat) : Str :=
  let p := position (s.take (s.length - left))
  message ++ str! " at line " ++ natDigits p.1 ++ str! " column " ++ natDigits p.2

/-- The message of `from_slice`; none if the value is read. -/
def report (f : Reader Json) (b : Bytes) : Option Str :=
  match f (octets b) with
  | (.err m (some l), _) => some (display (octets b) m l)
  | (.err m none, _) => some m
  | _ => none

end Reading

end Oid4vci
