import Verif.Base.Utf8

/-!
Independent specification of URL processing on the wallet's side: percent-decoding and query
parameters (RFC 3986, application/x-www-form-urlencoded without the `+` rule).
-/

namespace Oid4vci.Spec

/-- Value of a hexadecimal digit in either case. -/
def hexDigit (c : Char) : Option Nat :=
  if '0' ≤ c ∧ c ≤ '9' then some (c.toNat - '0'.toNat)
  else if 'A' ≤ c ∧ c ≤ 'F' then some (c.toNat - 'A'.toNat + 10)
  else if 'a' ≤ c ∧ c ≤ 'f' then some (c.toNat - 'a'.toNat + 10)
  else none

/-- Percent-decoding into bytes; `none` for a malformed triplet. -/
def percentDecode : Str → Option Bytes
  | [] => some []
  | '%' :: h :: l :: r =>
    match hexDigit h, hexDigit l, percentDecode r with
    | some h, some l, some bs => some (UInt8.ofNat (16 * h + l) :: bs)
    | _, _, _ => none
  | c :: r => if c = '%' then none else (percentDecode r).map (utf8EncodeChar c ++ ·)

/-- Percent-decoding into a string. -/
def urlDecode (s : Str) : Option Str := (percentDecode s).bind utf8Decode

/-- Unreserved characters of RFC 3986. -/
def Unreserved (c : Char) : Prop :=
  ('A' ≤ c ∧ c ≤ 'Z') ∨ ('a' ≤ c ∧ c ≤ 'z') ∨ ('0' ≤ c ∧ c ≤ '9') ∨
    c = '-' ∨ c = '.' ∨ c = '_' ∨ c = '~'

/-- Upper-case hexadecimal digits. -/
def UpperHex (c : Char) : Prop := ('0' ≤ c ∧ c ≤ '9') ∨ ('A' ≤ c ∧ c ≤ 'F')

/-- A percent-encoded payload: unreserved characters and `%XX` triplets only. -/
inductive Payload : Str → Prop where
  | nil : Payload []
  | char {c : Char} {s : Str} : Unreserved c → Payload s → Payload (c :: s)
  | triplet {h l : Char} {s : Str} : UpperHex h → UpperHex l → Payload s →
      Payload ('%' :: h :: l :: s)

/-- The part of a string before the first `c`, and what follows it if there is one. -/
def cut (c : Char) : Str → Str × Option Str
  | [] => ([], none)
  | x :: s => if x = c then ([], some s) else ((x :: (cut c s).1), (cut c s).2)

/-- The query component of a URL: after the first `?`, without the fragment. -/
def query (url : Str) : Option Str := (cut '?' (cut '#' url).1).2

/-- The parameters of a query: `&`-separated, each cut at the first `=`. -/
def params (q : Str) : List (Str × Str) :=
  match cut '&' q with
  | (p, none) => [((cut '=' p).1, (cut '=' p).2.getD [])]
  | (p, some r) =>
    if r.length < q.length then ((cut '=' p).1, (cut '=' p).2.getD []) :: params r else []
termination_by q.length

/-- The parameters of a URL. -/
def urlParams (url : Str) : List (Str × Str) :=
  match query url with
  | none => []
  | some q => params q

end Oid4vci.Spec
