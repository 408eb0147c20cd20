import Verif.Base.Str

/-!
DIDs and DID URLs, from the ABNF of DID Core 1.0 (sections 3.1 and 3.2) and RFC 3986.
-/

namespace Oid4vci.Spec

/-- `ALPHA / DIGIT`. -/
def AlphaNum (c : Char) : Prop :=
  ('a' ≤ c ∧ c ≤ 'z') ∨ ('A' ≤ c ∧ c ≤ 'Z') ∨ ('0' ≤ c ∧ c ≤ '9')

/-- `HEXDIG`, in both cases. -/
def HexDigit (c : Char) : Prop := ('0' ≤ c ∧ c ≤ '9') ∨ ('A' ≤ c ∧ c ≤ 'F') ∨ ('a' ≤ c ∧ c ≤ 'f')

/-- Repetitions of characters from a set and percent-encoded octets. -/
inductive Chars (p : Char → Prop) : Str → Prop
  | nil : Chars p []
  | cons (c : Char) (s : Str) : p c → Chars p s → Chars p (c :: s)
  | pct (a b : Char) (s : Str) : HexDigit a → HexDigit b → Chars p s → Chars p ('%' :: a :: b :: s)

/-- `method-name`: lower-case letters and digits, at least one. -/
def MethodName (s : Str) : Prop := s ≠ [] ∧ ∀ c ∈ s, ('a' ≤ c ∧ c ≤ 'z') ∨ ('0' ≤ c ∧ c ≤ '9')

/-- `idchar` without percent-encoding. -/
def IdChar (c : Char) : Prop := AlphaNum c ∨ c ∈ ['.', '-', '_']

/-- `method-specific-id`: `idchar`s and colons, the last not a colon. -/
def MethodSpecificId (s : Str) : Prop :=
  ∃ a b, s = a ++ b ∧ Chars (fun c => IdChar c ∨ c = ':') a ∧ Chars IdChar b ∧ b ≠ []

/-- `did = "did:" method-name ":" method-specific-id`. -/
def IsDid (s : Str) : Prop := ∃ m i, s = str! "did:" ++ (m ++ ':' :: i) ∧ MethodName m ∧ MethodSpecificId i

/-- `pchar` of RFC 3986 without percent-encoding. -/
def PChar (c : Char) : Prop :=
  AlphaNum c ∨ c ∈ ['-', '.', '_', '~', '!', '$', '&', '\'', '(', ')', '*', '+', ',', ';', '=', ':', '@']

/-- `path-abempty` of RFC 3986. -/
def PathAbempty (s : Str) : Prop := s = [] ∨ ∃ r, s = '/' :: r ∧ Chars (fun c => PChar c ∨ c = '/') r

/-- `query` and `fragment` of RFC 3986. -/
def QueryOrFragment (s : Str) : Prop := Chars (fun c => PChar c ∨ c = '/' ∨ c = '?') s

/-- `did-url = did path-abempty [ "?" query ] [ "#" fragment ]`, of which `did` is the DID. -/
def IsDidUrl (s did : Str) : Prop :=
  ∃ path q f, s = did ++ (path ++ (q ++ f)) ∧ IsDid did ∧ PathAbempty path ∧
    (q = [] ∨ ∃ r, q = '?' :: r ∧ QueryOrFragment r) ∧ (f = [] ∨ ∃ r, f = '#' :: r ∧ QueryOrFragment r)

/-- `d` is what precedes the first slash, question mark or number sign of `s`. -/
def UpToDelimiter (s d : Str) : Prop :=
  (∀ c ∈ d, c ∉ ['/', '?', '#']) ∧ (s = d ∨ ∃ c r, s = d ++ c :: r ∧ c ∈ ['/', '?', '#'])

end Oid4vci.Spec
