import Verif.Spec.JwtText
import Verif.Spec.Double

/-! Reports about JSON that cannot be read: what they say and which place they name. -/

namespace Oid4vci.Spec

/-- The octets of the header of a proof JWT: UTF-8 of a JSON text that describes a header. -/
def ReadableHeader (b : Bytes) : Prop := ∃ h s, IsUtf8 s b ∧ TextOf HeaderDoc h s

/-- The octets of the body of a proof JWT. -/
def ReadableBody (x : Ext) (b : Bytes) : Prop := ∃ body v, LooseText claimNames v b ∧ BodyDoc x v body

/-- The place after the first `n` octets: the line is one more than the number of line feeds among them, the
column is the number of octets after the last one. -/
def PlaceAfter (b : Bytes) (n line column : Nat) : Prop :=
  ∃ lines rest, b.take n = lines ++ rest ∧ (lines = [] ∨ ∃ l, lines = l ++ [0x0A]) ∧ (0x0A : UInt8) ∉ rest ∧
    line = 1 + lines.count 0x0A ∧ column = rest.length

/-- A report: a message and the place after the first `n` octets. -/
def Report (b : Bytes) (message : Str) (n : Nat) (text : Str) : Prop :=
  n ≤ b.length ∧ ∃ line column l c, PlaceAfter b n line column ∧ IntText line l ∧ IntText column c ∧
    text = message ++ str! " at line " ++ l ++ str! " column " ++ c

/-- What a claim has to be: `iss`, `sub`, `nbf` and `exp` may be `null`. -/
def ClaimValue (x : Ext) (k : Str) (v : Json) : Prop :=
  (k ∈ [str! "iss", str! "sub"] → v = .null ∨ ∃ s, IsText v s) ∧
  (k ∈ [str! "aud", str! "nonce"] → ∃ s, IsText v s) ∧
  (k = str! "iat" → ∃ t, IsInstant x v t) ∧
  (k ∈ [str! "nbf", str! "exp"] → v = .null ∨ ∃ t, IsInstant x v t)

/-- The beginning of a body up to the place where the next name is due: all claims so far are what they have to be
and none occurs twice. Other members may be anything. -/
inductive BodyStart (x : Ext) : List (Str × Json) → Str → Prop
  | brace (w w' : Str) : Ws w → Ws w' → BodyStart x [] (w ++ '{' :: w')
  | claim (kvs : List (Str × Json)) (t k : Str) (v : Json) (s w w' : Str) : BodyStart x kvs t →
      LooseMember claimNames k v s → ClaimValue x k v → (k ∈ claimNames → k ∉ kvs.map Prod.fst) → Ws w → Ws w' →
      BodyStart x (kvs ++ [(k, v)]) (t ++ s ++ w ++ ',' :: w')

/-- What comes after a value: white space, a comma, a closing brace or nothing. -/
def AfterValue (t : Str) : Prop := ∀ c ∈ t.head?, c ∈ [' ', '\t', '\n', '\r', ',', '}']

/-- How the digits `ds` of a decimal `ds * 10^k` are written without exponent. -/
inductive Unscaled (ds : Str) (k : Int) : Str → Prop
  | whole (n : Nat) : k = n → Unscaled ds k (ds ++ List.replicate n '0')
  | inside (a b : Str) : ds = a ++ b → a ≠ [] → (b.length : Int) = -k → b ≠ [] → Unscaled ds k (a ++ '.' :: b)
  | small (n : Nat) : (ds.length : Int) + k = -n → Unscaled ds k (str! "0." ++ List.replicate n '0' ++ ds)

/-- The text of a double in a report: its sign and its shortest decimal, without exponent, and without a decimal
point if it is an integer. -/
def Displayed (d : Double) (s : Str) : Prop :=
  ∃ t, s = (if d.neg then ['-'] else []) ++ t ∧
    ((d.mant = 0 ∧ t = str! "0") ∨
     (d.mant ≠ 0 ∧ ∃ D k ds u, Shortest d.mant d.exp D k ∧ DigitsText ds u ∧ ds.head? ≠ some 0 ∧
        D = numeral 10 ds ∧ Unscaled u k t))

/-- What a value is called in a report; strings are what is expected. -/
inductive Called : Json → Str → Prop
  | null : Called .null (str! "null")
  | yes : Called (.bool true) (str! "boolean `true`")
  | no : Called (.bool false) (str! "boolean `false`")
  | integer (n : Int) (s : Str) : IntegerText n s → Called (.num n) (str! "integer `" ++ s ++ str! "`")
  | float (d : Double) (s : Str) : Displayed d s → Called (.float d) (str! "floating point `" ++ s ++ str! "`")
  | array (xs : List Json) : Called (.arr xs) (str! "sequence")
  | object (kvs : List (Str × Json)) : Called (.obj kvs) (str! "map")

/-- How much of a value in the wrong place is read before it is reported: arrays and objects are not entered. -/
def readBefore (v : Json) (t : Str) : Nat :=
  match v with
  | .arr _ => 0
  | .obj _ => 0
  | _ => t.length

end Oid4vci.Spec
