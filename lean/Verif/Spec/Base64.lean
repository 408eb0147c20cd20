import Verif.Base.Str

/-! RFC 4648 base64url, as a statement about numbers (independent of the grouping in
`Verif.Base.Base64`). -/

namespace Oid4vci.Spec

/-- RFC 4648 table 2: the URL and filename safe alphabet, in order of the values 0 to 63. -/
def base64urlAlphabet : Str :=
  str! "ABCDEFGHIJKLMNOPQRSTUVWXYZabcdefghijklmnopqrstuvwxyz0123456789-_"

/-- The number written with the digits `ds` in base `r`, most significant digit first. -/
def numeral (r : Nat) (ds : List Nat) : Nat := ds.foldl (fun a d => a * r + d) 0

/-- `s` is the unpadded base64url text of `b`: its digits in base 64 are the bits of `b`, filled up
with fewer than six zero bits. -/
def IsBase64url (b : Bytes) (s : Str) : Prop :=
  ∃ ds : List (Fin 64), ∃ pad < 6, s = ds.map (fun d => base64urlAlphabet[d.1]!) ∧
    6 * ds.length = 8 * b.length + pad ∧
    numeral 64 (ds.map Fin.val) = numeral 256 (b.map UInt8.toNat) * 2 ^ pad

/-- RFC 4648 table 1: the base 64 alphabet, in order of the values 0 to 63. -/
def base64Alphabet : Str :=
  str! "ABCDEFGHIJKLMNOPQRSTUVWXYZabcdefghijklmnopqrstuvwxyz0123456789+/"

/-- RFC 4648 section 4: `s` is the padded base64 text of `b`. Its digits in base 64 are the bits of
`b`, filled up with two zero bits for each of the `=` signs (at most two) which complete the last
group of four characters. -/
def IsBase64 (b : Bytes) (s : Str) : Prop :=
  ∃ ds : List (Fin 64), ∃ k < 3, s = ds.map (fun d => base64Alphabet[d.1]!) ++ List.replicate k '=' ∧
    s.length % 4 = 0 ∧ 6 * ds.length = 8 * b.length + 2 * k ∧
    numeral 64 (ds.map Fin.val) = numeral 256 (b.map UInt8.toNat) * 2 ^ (2 * k)

end Oid4vci.Spec
