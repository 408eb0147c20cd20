/-!
Strings. Rust's `String`/`&str` is a sequence of Unicode scalar values; Lean's `Char` is exactly a
Unicode scalar value, so a string is modelled as `List Char`.
-/

namespace Oid4vci

/-- A Rust string: the list of its `char`s. -/
abbrev Str := List Char

/-- A byte vector, Rust's `Vec<u8>`. -/
abbrev Bytes := List UInt8

/-- `str! "abc"` is the literal `['a', 'b', 'c']`, expanded at elaboration time so that the kernel
can compute with it. -/
syntax (name := strLit) "str! " str : term

macro_rules
  | `(str! $s:str) => do
    let mut t : Lean.TSyntax `term ← `((List.nil : List Char))
    for c in s.getString.toList.reverse do
      t ← `(List.cons $(Lean.Syntax.mkCharLit c) $t)
    return t

/-- `s.split(c)` collected into a vector (Rust `str::split` with a `char` pattern): always at least
one piece; used at jwt/mod.rs:84 and jwt/mod.rs:235. -/
def splitOn (c : Char) : Str → List Str
  | [] => [[]]
  | x :: xs =>
    if x = c then [] :: splitOn c xs
    else match splitOn c xs with
      | [] => [[x]]
      | h :: t => (x :: h) :: t

/-- `s.splitn(n, c)` collected into a vector (Rust `str::splitn`): at most `n` pieces, the last one
is the unsplit remainder; used at jwt/mod.rs:256. -/
def splitN : Nat → Char → Str → List Str
  | 0, _, _ => []
  | 1, _, s => [s]
  | n + 2, c, s =>
    match s with
    | [] => [[]]
    | x :: xs =>
      if x = c then [] :: splitN (n + 1) c xs
      else match splitN (n + 2) c xs with
        | [] => [[x]]
        | h :: t => (x :: h) :: t

/-- `v.join(sep)` for a one-character separator (Rust `[String]::join`); used at jwt/mod.rs:135. -/
def joinWith (c : Char) : List Str → Str
  | [] => []
  | [s] => s
  | s :: t => s ++ c :: joinWith c t

/-- `s.matches(c).count()`; used at jwt/mod.rs:234. -/
def countChar (c : Char) (s : Str) : Nat := s.count c

/-- ASCII part of `char::to_lowercase`. -/
def lowerChar (c : Char) : Char :=
  if 'A' ≤ c ∧ c ≤ 'Z' then Char.ofNat (c.toNat + 32) else c

/-- ASCII part of `char::to_uppercase`. -/
def upperChar (c : Char) : Char :=
  if 'a' ≤ c ∧ c ≤ 'z' then Char.ofNat (c.toNat - 32) else c

/-- `str::to_lowercase`, restricted to ASCII letters (jwt/mod.rs:552). Simplification: Rust maps all
of Unicode. The result is only ever compared with `openid4vci-proof+jwt`; no non-ASCII character has
a lower-case mapping that lies inside that string (the only ones mapping to ASCII are U+212A to `k`,
which does not occur in it, and U+0130 to `i` followed by a combining dot). -/
def toLowercase (s : Str) : Str := s.map lowerChar

/-- `str::to_uppercase`, restricted to ASCII letters (types/credential_request.rs:68).
Simplification as for `toLowercase`: the result is only compared with `JWT`, and the characters with
an upper-case mapping that starts with J, W or T map to that letter followed by a combining mark. -/
def toUppercase (s : Str) : Str := s.map upperChar

end Oid4vci
