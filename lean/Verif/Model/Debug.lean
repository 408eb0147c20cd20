import Verif.Base.Reading

/-!
`{:?}` of a string, as serde's messages repeat strings in the wrong place (`Display for de::Unexpected`): `Debug for str`
and `char::escape_debug_ext` of Rust's core library (1.62 and later). Which characters are shown as they are is decided
by tables of the Unicode version (`is_printable` and `Grapheme_Extend`), which are a parameter.
-/

namespace Oid4vci
namespace Debug

/-- `char::escape_debug_ext` with `escape_double_quote` and `escape_grapheme_extended` and without
`escape_single_quote`. -/
def char (plain : Char → Bool) (c : Char) : Str :=
  if c = '\x00' then str! "\\0"
  else if c = '\t' then str! "\\t"
  else if c = '\r' then str! "\\r"
  else if c = '\n' then str! "\\n"
  else if c = '\\' then str! "\\\\"
  else if c = '"' then str! "\\\""
  else if plain c then [c]
  else str! "\\u{" ++ Nat.toDigits 16 c.toNat ++ str! "}"

/-- `Debug for str`. -/
def string (plain : Char → Bool) (s : Str) : Str := '"' :: (s.flatMap (char plain) ++ ['"'])

end Debug

namespace Reading.Texts

/-- The texts with `{:?}` of strings; those of chrono remain parameters. -/
def withDebug (T : Texts) (plain : Char → Bool) : Texts := { T with debug := Debug.string plain }

end Reading.Texts
end Oid4vci
