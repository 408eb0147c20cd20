import Verif.Spec.Json
import Verif.Spec.Range

/-! RFC 8259: which texts are JSON, and what they denote. -/

namespace Oid4vci.Spec

/-- Section 2, `ws`. -/
def Ws (s : Str) : Prop := ∀ c ∈ s, c ∈ [' ', '\t', '\n', '\r']

/-- A hexadecimal digit and its value (RFC 5234 `HEXDIG`, either case). -/
def hexDigits : List (Char × Nat) :=
  digits ++ [('A', 10), ('B', 11), ('C', 12), ('D', 13), ('E', 14), ('F', 15),
    ('a', 10), ('b', 11), ('c', 12), ('d', 13), ('e', 14), ('f', 15)]

/-- Four hexadecimal digits and the number they write. -/
def Hex4 (n : Nat) (s : Str) : Prop :=
  ∃ ds : List Nat, Written hexDigits ds s ∧ ds.length = 4 ∧ n = numeral 16 ds

/-- Section 7: the two-character escapes. -/
def escapes : List (Char × Char) :=
  [('"', '"'), ('\\', '\\'), ('/', '/'), ('b', Char.ofNat 0x08), ('f', Char.ofNat 0x0C), ('n', '\n'),
   ('r', '\r'), ('t', '\t')]

/-- Section 7: the characters of a string and how they are written between the quotes. A character
beyond U+FFFF may be written as a surrogate pair; a lone surrogate is not a character. -/
inductive CharsText : Str → Str → Prop
  | nil : CharsText [] []
  | unescaped (c : Char) (v t : Str) : 0x20 ≤ c.toNat → c ≠ '"' → c ≠ '\\' → CharsText v t →
      CharsText (c :: v) (c :: t)
  | escape (e c : Char) (v t : Str) : (e, c) ∈ escapes → CharsText v t →
      CharsText (c :: v) ('\\' :: e :: t)
  | unicode (c : Char) (h v t : Str) : Hex4 c.toNat h → CharsText v t →
      CharsText (c :: v) ('\\' :: 'u' :: (h ++ t))
  | pair (c : Char) (hi lo : Nat) (h l v t : Str) : Hex4 hi h → Hex4 lo l →
      0xD800 ≤ hi → hi ≤ 0xDBFF → 0xDC00 ≤ lo → lo ≤ 0xDFFF →
      c.toNat = 0x10000 + (hi - 0xD800) * 0x400 + (lo - 0xDC00) → CharsText v t →
      CharsText (c :: v) ('\\' :: 'u' :: (h ++ '\\' :: 'u' :: (l ++ t)))

/-- A string with its quotes. -/
def StringText (v s : Str) : Prop := ∃ t, CharsText v t ∧ s = '"' :: (t ++ ['"'])

/-- Section 6, `int`: no leading zeros. -/
def IntText (n : Nat) (s : Str) : Prop :=
  ∃ ds, DigitsText ds s ∧ (ds.head? = some 0 → ds = [0]) ∧ n = numeral 10 ds

/-- Section 6, `[ frac ]`. -/
def FracText (s : Str) : Prop := s = [] ∨ ∃ ds t, DigitsText ds t ∧ s = '.' :: t

/-- Section 6, `[ exp ]`. -/
def ExpText (s : Str) : Prop :=
  s = [] ∨ ∃ ds t, DigitsText ds t ∧ ∃ e ∈ ['e', 'E'], ∃ sign ∈ [[], ['+'], ['-']], s = e :: (sign ++ t)

/-- Section 6, `number`. An integer in the 64-bit range is given by its value; any other number by its
text (`-0` is such a number: it denotes the floating-point negative zero). -/
inductive NumberText : Json.Lexical → Str → Prop
  | nonneg (n : Nat) (s : Str) : IntText n s → n < 2 ^ 64 → NumberText (.num n) s
  | negative (n : Nat) (s : Str) : IntText n s → n ≠ 0 → n ≤ 2 ^ 63 → NumberText (.num (-n)) ('-' :: s)
  | otherwise (neg : Bool) (n : Nat) (s f e : Str) : IntText n s → FracText f → ExpText e →
      (f ++ e = [] → if neg then n = 0 ∨ 2 ^ 63 < n else 2 ^ 64 ≤ n) →
      NumberText (.float ((if neg then ['-'] else []) ++ s ++ f ++ e))
        ((if neg then ['-'] else []) ++ s ++ f ++ e)

mutual
/-- Section 3, `value`. Numbers that are not 64-bit integers are read as double-precision numbers (section 6
expects no more; section 9 allows to refuse what is too large). -/
inductive ValueText : Json → Str → Prop
  | null : ValueText .null (str! "null")
  | true : ValueText (.bool true) (str! "true")
  | false : ValueText (.bool false) (str! "false")
  | integer (n : Int) (s : Str) : NumberText (.num n) s → ValueText (.num n) s
  | float (d : Double) (s : Str) : NumberText (.float s) s → ReadAs s d → ValueText (.float d) s
  | string (v s : Str) : StringText v s → ValueText (.str v) s
  | emptyArray (w : Str) : Ws w → ValueText (.arr []) ('[' :: (w ++ [']']))
  | array (x : Json) (xs : List Json) (w s t : Str) : Ws w → ValueText x s → ElementsText xs t →
      ValueText (.arr (x :: xs)) ('[' :: (w ++ s ++ t))
  | emptyObject (w : Str) : Ws w → ValueText (.obj []) ('{' :: (w ++ ['}']))
  | object (k : Str) (v : Json) (kvs : List (Str × Json)) (w s t : Str) : Ws w → MemberText k v s →
      MembersText kvs t → ValueText (.obj ((k, v) :: kvs)) ('{' :: (w ++ s ++ t))
/-- Section 5: the elements after the first one, and the closing bracket. -/
inductive ElementsText : List Json → Str → Prop
  | close (w : Str) : Ws w → ElementsText [] (w ++ [']'])
  | more (x : Json) (xs : List Json) (w w' s t : Str) : Ws w → Ws w' → ValueText x s →
      ElementsText xs t → ElementsText (x :: xs) (w ++ ',' :: (w' ++ s ++ t))
/-- Section 4, `member`. -/
inductive MemberText : Str → Json → Str → Prop
  | mk (k : Str) (v : Json) (s w w' t : Str) : StringText k s → Ws w → Ws w' → ValueText v t →
      MemberText k v (s ++ w ++ ':' :: (w' ++ t))
/-- Section 4: the members after the first one, and the closing brace. -/
inductive MembersText : List (Str × Json) → Str → Prop
  | close (w : Str) : Ws w → MembersText [] (w ++ ['}'])
  | more (k : Str) (v : Json) (kvs : List (Str × Json)) (w w' s t : Str) : Ws w → Ws w' →
      MemberText k v s → MembersText kvs t → MembersText ((k, v) :: kvs) (w ++ ',' :: (w' ++ s ++ t))
end

/-- Section 2, `JSON-text`. -/
def JsonText (j : Json) (s : Str) : Prop :=
  ∃ w t w', Ws w ∧ ValueText j t ∧ Ws w' ∧ s = w ++ t ++ w'

end Oid4vci.Spec
