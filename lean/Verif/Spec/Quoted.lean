import Verif.Spec.JsonReport

/-!
How strings are quoted in reports, and what is reported about a header or body that is no object: what it is instead,
or what is wrong with an array.
-/

namespace Oid4vci.Spec

/-- A lower-case hexadecimal digit and its value. -/
def lowerHex : List (Char × Nat) :=
  digits ++ [('a', 10), ('b', 11), ('c', 12), ('d', 13), ('e', 14), ('f', 15)]

/-- A number in hexadecimal digits, without leading zeros. -/
def HexText (n : Nat) (s : Str) : Prop :=
  ∃ ds, ds ≠ [] ∧ Written lowerHex ds s ∧ (ds.head? = some 0 → ds = [0]) ∧ n = numeral 16 ds

/-- The escapes of one letter, and what they stand for. -/
def letterEscapes : List (Char × Char) :=
  [('0', Char.ofNat 0), ('t', Char.ofNat 9), ('n', Char.ofNat 10), ('r', Char.ofNat 13), ('"', '"'), ('\\', '\\')]

/-- How a character is written between the quotes; `plain` are the characters that are shown. -/
inductive QuotedChar (plain : Char → Prop) (c : Char) : Str → Prop
  | letter (e : Char) : (e, c) ∈ letterEscapes → QuotedChar plain c ['\\', e]
  | shown : c ∉ letterEscapes.map Prod.snd → plain c → QuotedChar plain c [c]
  | number (s : Str) : c ∉ letterEscapes.map Prod.snd → ¬ plain c → HexText c.toNat s →
      QuotedChar plain c (str! "\\u{" ++ s ++ str! "}")

/-- A string in quotes. -/
def QuotedText (plain : Char → Prop) (s t : Str) : Prop :=
  ∃ parts, List.Forall₂ (QuotedChar plain) s parts ∧ t = str! "\"" ++ parts.flatten ++ str! "\""

/-- What a document is called in a report; strings are repeated. -/
inductive CalledDocument (plain : Char → Prop) : Json → Str → Prop
  | other (v : Json) (c : Str) : Called v c → CalledDocument plain v c
  | string (s t : Str) : QuotedText plain s t → CalledDocument plain (.str s) (str! "string " ++ t)

/-- The beginning of a body that is an array: the elements so far are what the claims in their place have to be. -/
inductive ArrayStart (x : Ext) : List Json → Str → Prop
  | bracket (w : Str) : Ws w → ArrayStart x [] (w ++ ['['])
  | element (vs : List Json) (t w w' u s k : Str) (v : Json) : ArrayStart x vs t → Ws w → Ws w' →
      ValueText v u → Utf8Text u s → claimNames[vs.length]? = some k → ClaimValue x k v →
      ArrayStart x (vs ++ [v]) (t ++ (w ++ ((if vs = [] then [] else [',']) ++ (w' ++ s))))

end Oid4vci.Spec
