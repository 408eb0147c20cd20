import Verif.Spec.JsonText
import Verif.Spec.Utf8

/-! What a reader accepts that skips unknown members instead of reading them. Octets are written as the
characters U+0000 to U+00FF. -/

namespace Oid4vci.Spec

/-- The octets, one character each. -/
def Octets (b : Bytes) (t : Str) : Prop := b.map UInt8.toNat = t.map Char.toNat

/-- The octets of a text in UTF-8. -/
def Utf8Text (s t : Str) : Prop := ∃ b, IsUtf8 s b ∧ Octets b t

/-- The inside of a string that nobody looks at: any octets but control characters, quotes and
backslashes, and escapes; `\u` needs four hexadecimal digits but they need not denote a character. -/
inductive SkippedChars : Str → Prop
  | nil : SkippedChars []
  | plain (c : Char) (t : Str) : 0x20 ≤ c.toNat → c ≠ '"' → c ≠ '\\' → SkippedChars t →
      SkippedChars (c :: t)
  | escape (e c : Char) (t : Str) : (e, c) ∈ escapes → SkippedChars t → SkippedChars ('\\' :: e :: t)
  | unicode (n : Nat) (h t : Str) : Hex4 n h → SkippedChars t → SkippedChars ('\\' :: 'u' :: (h ++ t))

/-- With the quotes. -/
def SkippedString (s : Str) : Prop := ∃ t, SkippedChars t ∧ s = '"' :: (t ++ ['"'])

mutual
/-- A value that nobody looks at: the grammar of RFC 8259 with such strings, nested at will. -/
inductive SkippedValue : Str → Prop
  | null : SkippedValue (str! "null")
  | true : SkippedValue (str! "true")
  | false : SkippedValue (str! "false")
  | number (j : Json.Lexical) (s : Str) : NumberText j s → SkippedValue s
  | string (s : Str) : SkippedString s → SkippedValue s
  | emptyArray (w : Str) : Ws w → SkippedValue ('[' :: (w ++ [']']))
  | array (w s t : Str) : Ws w → SkippedValue s → SkippedElements t → SkippedValue ('[' :: (w ++ s ++ t))
  | emptyObject (w : Str) : Ws w → SkippedValue ('{' :: (w ++ ['}']))
  | object (w s t : Str) : Ws w → SkippedMember s → SkippedMembers t → SkippedValue ('{' :: (w ++ s ++ t))
/-- The elements after the first one. -/
inductive SkippedElements : Str → Prop
  | close (w : Str) : Ws w → SkippedElements (w ++ [']'])
  | more (w w' s t : Str) : Ws w → Ws w' → SkippedValue s → SkippedElements t →
      SkippedElements (w ++ ',' :: (w' ++ s ++ t))
/-- A member. -/
inductive SkippedMember : Str → Prop
  | mk (s w w' t : Str) : SkippedString s → Ws w → Ws w' → SkippedValue t →
      SkippedMember (s ++ w ++ ':' :: (w' ++ t))
/-- The members after the first one. -/
inductive SkippedMembers : Str → Prop
  | close (w : Str) : Ws w → SkippedMembers (w ++ ['}'])
  | more (w w' s t : Str) : Ws w → Ws w' → SkippedMember s → SkippedMembers t →
      SkippedMembers (w ++ ',' :: (w' ++ s ++ t))
end

/-- A member of an object of which only the members `known` are looked at. The name is always a JSON
string in UTF-8, and so is the value of a known member; the value of any other one counts as `null`. -/
inductive LooseMember (known : List Str) : Str → Json → Str → Prop
  | known (k : Str) (v : Json) (n s w w' u t : Str) : k ∈ known → StringText k n → Utf8Text n s → Ws w →
      Ws w' → ValueText v u → depth v ≤ 127 → Utf8Text u t →
      LooseMember known k v (s ++ w ++ ':' :: (w' ++ t))
  | other (k n s w w' t : Str) : k ∉ known → StringText k n → Utf8Text n s → Ws w → Ws w' →
      SkippedValue t → LooseMember known k .null (s ++ w ++ ':' :: (w' ++ t))

/-- The members after the first one, and the closing brace. -/
inductive LooseMembers (known : List Str) : List (Str × Json) → Str → Prop
  | close (w : Str) : Ws w → LooseMembers known [] (w ++ ['}'])
  | more (k : Str) (v : Json) (kvs : List (Str × Json)) (w w' s t : Str) : Ws w → Ws w' →
      LooseMember known k v s → LooseMembers known kvs t →
      LooseMembers known ((k, v) :: kvs) (w ++ ',' :: (w' ++ s ++ t))

/-- An object. -/
inductive LooseObject (known : List Str) : List (Str × Json) → Str → Prop
  | empty (w : Str) : Ws w → LooseObject known [] ('{' :: (w ++ ['}']))
  | members (k : Str) (v : Json) (kvs : List (Str × Json)) (w s t : Str) : Ws w →
      LooseMember known k v s → LooseMembers known kvs t →
      LooseObject known ((k, v) :: kvs) ('{' :: (w ++ s ++ t))

/-- The bytes of a document of which only the members `known` are looked at, if it is an object; any
other document is a JSON text in UTF-8 of at most 127 levels. -/
inductive LooseText (known : List Str) : Json → Bytes → Prop
  | object (kvs : List (Str × Json)) (w t w' : Str) (b : Bytes) : Ws w → LooseObject known kvs t → Ws w' →
      Octets b (w ++ t ++ w') → LooseText known (.obj kvs) b
  | other (j : Json) (s : Str) (b : Bytes) : (∀ kvs, j ≠ .obj kvs) → JsonText j s → depth j ≤ 127 →
      IsUtf8 s b → LooseText known j b

end Oid4vci.Spec
