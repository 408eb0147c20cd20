import Verif.Props.Unreadable

/-!
Reports of serde_json 1.0.96, one or more for each message (tests, not theorems). The expected texts follow from its
sources; several occur literally in its test suite (`test_parse_*`).
-/

namespace Oid4vci.Tests

open Reading

/-- The report about the octets of a text as a value that is kept (the members of a header). -/
def kept (s : Str) : Option Str :=
  report (document (settle (fueled fun n => value n (Json.maxDepth - 1)))) (utf8Encode s)

/-- The report about a value that is skipped (the unknown members of a body). -/
def skipped (s : Str) : Option Str := report (document (settle ignored)) (utf8Encode s)

def header (s : Str) : Option Str := headerReport Ex.texts (utf8Encode s)
def body (s : Str) : Option Str := bodyReport Ex.ext Ex.texts (utf8Encode s)

/-! Words -/
example : kept (str! "n") = some (str! "EOF while parsing a value at line 1 column 1") := by decide +kernel
example : kept (str! "nul") = some (str! "EOF while parsing a value at line 1 column 3") := by decide +kernel
example : kept (str! "nulla") = some (str! "trailing characters at line 1 column 5") := by decide +kernel
example : kept (str! "truz") = some (str! "expected ident at line 1 column 4") := by decide +kernel
example : kept (str! "faz") = some (str! "expected ident at line 1 column 3") := by decide +kernel
example : kept (str! "null") = none := by decide +kernel
example : kept (str! "true") = none := by decide +kernel
example : kept (str! "false") = none := by decide +kernel
example : skipped (str! "truz") = some (str! "expected ident at line 1 column 4") := by decide +kernel
example : skipped (str! "faz") = some (str! "expected ident at line 1 column 3") := by decide +kernel
example : skipped (str! "nulx") = some (str! "expected ident at line 1 column 4") := by decide +kernel

/-! Numbers -/
example : kept (str! "+") = some (str! "expected value at line 1 column 1") := by decide +kernel
example : kept (str! ".") = some (str! "expected value at line 1 column 1") := by decide +kernel
example : kept (str! "-") = some (str! "EOF while parsing a value at line 1 column 1") := by decide +kernel
example : kept (str! "00") = some (str! "invalid number at line 1 column 2") := by decide +kernel
example : kept (str! "0x80") = some (str! "trailing characters at line 1 column 2") := by decide +kernel
example : kept (str! "\\0") = some (str! "expected value at line 1 column 1") := by decide +kernel
example : kept (str! ".0") = some (str! "expected value at line 1 column 1") := by decide +kernel
example : kept (str! "0.") = some (str! "EOF while parsing a value at line 1 column 2") := by decide +kernel
example : kept (str! "1.") = some (str! "EOF while parsing a value at line 1 column 2") := by decide +kernel
example : kept (str! "1.a") = some (str! "invalid number at line 1 column 3") := by decide +kernel
example : kept (str! "1.e1") = some (str! "invalid number at line 1 column 3") := by decide +kernel
example : kept (str! "1e") = some (str! "EOF while parsing a value at line 1 column 2") := by decide +kernel
example : kept (str! "1e+") = some (str! "EOF while parsing a value at line 1 column 3") := by decide +kernel
example : kept (str! "1a") = some (str! "trailing characters at line 1 column 2") := by decide +kernel
example : kept (str! "1ea") = some (str! "invalid number at line 1 column 3") := by decide +kernel
example : kept (str! "-a") = some (str! "invalid number at line 1 column 2") := by decide +kernel
example : kept (str! "100e777777777777777777777777777") =
    some (str! "number out of range at line 1 column 14") := by decide +kernel
example : kept (str! "-100e777777777777777777777777777") =
    some (str! "number out of range at line 1 column 15") := by decide +kernel
example : kept (str! "1e400") = some (str! "number out of range at line 1 column 5") := by decide +kernel
example : kept (str! "0e777777777777777777777777777") = none := by decide +kernel
example : kept (str! "1e-777777777777777777777777777") = none := by decide +kernel
example : kept (str! "12.5E+2") = none := by decide +kernel
example : skipped (str! "-") = some (str! "invalid number at line 1 column 1") := by decide +kernel
example : skipped (str! "-a") = some (str! "invalid number at line 1 column 2") := by decide +kernel
example : skipped (str! "00") = some (str! "invalid number at line 1 column 2") := by decide +kernel
example : skipped (str! "1.") = some (str! "invalid number at line 1 column 2") := by decide +kernel
example : skipped (str! "1.a") = some (str! "invalid number at line 1 column 3") := by decide +kernel
example : skipped (str! "1e") = some (str! "invalid number at line 1 column 2") := by decide +kernel
example : skipped (str! "1ea") = some (str! "invalid number at line 1 column 3") := by decide +kernel
example : skipped (str! "1e999") = none := by decide +kernel
example : skipped (str! "-0.50e-9 ") = none := by decide +kernel

/-! Strings -/
example : kept (str! "\"") = some (str! "EOF while parsing a string at line 1 column 1") := by decide +kernel
example : kept (str! "\"lol") = some (str! "EOF while parsing a string at line 1 column 4") := by decide +kernel
example : kept (str! "\"lol\"a") = some (str! "trailing characters at line 1 column 6") := by decide +kernel
example : kept (str! "\"\\") = some (str! "EOF while parsing a string at line 1 column 2") := by decide +kernel
example : kept (str! "\"\\a\"") = some (str! "invalid escape at line 1 column 3") := by decide +kernel
example : kept (str! "\"\\u") = some (str! "EOF while parsing a string at line 1 column 3") := by decide +kernel
example : kept (str! "\"\\u12x4\"") = some (str! "invalid escape at line 1 column 6") := by decide +kernel
example : kept (str! "\"\\uD83C\\uFFFF\"") =
    some (str! "lone leading surrogate in hex escape at line 1 column 13") := by decide +kernel
example : kept (str! "\"\\uDC00\"") = some (str! "lone leading surrogate in hex escape at line 1 column 7") := by
  decide +kernel
example : kept (str! "\"\\uD83Cx\"") = some (str! "unexpected end of hex escape at line 1 column 8") := by
  decide +kernel
example : kept (str! "\"\\uD83C\\n\"") = some (str! "unexpected end of hex escape at line 1 column 9") := by
  decide +kernel
example : kept (str! "\"\n\"") =
    some (str! "control character (\\u0000-\\u001F) found while parsing a string at line 2 column 0") := by decide +kernel
example : kept (str! "\"\t\"") =
    some (str! "control character (\\u0000-\\u001F) found while parsing a string at line 1 column 2") := by decide +kernel
example : skipped (str! "\"\t\"") =
    some (str! "control character (\\u0000-\\u001F) found while parsing a string at line 1 column 1") := by decide +kernel
example : skipped (str! "\"") = some (str! "EOF while parsing a string at line 1 column 1") := by decide +kernel
example : skipped (str! "\"\\") = some (str! "EOF while parsing a string at line 1 column 2") := by decide +kernel
example : skipped (str! "\"\\q\"") = some (str! "invalid escape at line 1 column 3") := by decide +kernel
example : skipped (str! "\"\\uD83C\"") = none := by decide +kernel
example : report (document (settle (fueled fun n => value n 9))) [0x22, 0xFF, 0x22] =
    some (str! "invalid unicode code point at line 1 column 3") := by decide +kernel
example : report (document (settle ignored)) [0x22, 0xFF, 0x22] = none := by decide +kernel

/-! Arrays -/
example : kept (str! "[") = some (str! "EOF while parsing a list at line 1 column 1") := by decide +kernel
example : kept (str! "[ ") = some (str! "EOF while parsing a list at line 1 column 2") := by decide +kernel
example : kept (str! "[1") = some (str! "EOF while parsing a list at line 1 column 2") := by decide +kernel
example : kept (str! "[1,") = some (str! "EOF while parsing a value at line 1 column 3") := by decide +kernel
example : kept (str! "[1,]") = some (str! "trailing comma at line 1 column 4") := by decide +kernel
example : kept (str! "[1 2]") = some (str! "expected `,` or `]` at line 1 column 4") := by decide +kernel
example : kept (str! "[]a") = some (str! "trailing characters at line 1 column 3") := by decide +kernel
example : kept (str! "[1, [2], {\"a\": []}]") = none := by decide +kernel
example : skipped (str! "[") = some (str! "EOF while parsing a list at line 1 column 1") := by decide +kernel
example : skipped (str! "[1 2]") = some (str! "expected `,` or `]` at line 1 column 4") := by decide +kernel
example : skipped (str! "[1,]") = some (str! "expected value at line 1 column 4") := by decide +kernel

/-! Objects -/
example : kept (str! "{") = some (str! "EOF while parsing an object at line 1 column 1") := by decide +kernel
example : kept (str! "{ ") = some (str! "EOF while parsing an object at line 1 column 2") := by decide +kernel
example : kept (str! "{1") = some (str! "key must be a string at line 1 column 2") := by decide +kernel
example : kept (str! "{ \"a\"") = some (str! "EOF while parsing an object at line 1 column 5") := by decide +kernel
example : kept (str! "{\"a\"") = some (str! "EOF while parsing an object at line 1 column 4") := by decide +kernel
example : kept (str! "{\"a\" ") = some (str! "EOF while parsing an object at line 1 column 5") := by decide +kernel
example : kept (str! "{\"a\" 1") = some (str! "expected `:` at line 1 column 6") := by decide +kernel
example : kept (str! "{\"a\":") = some (str! "EOF while parsing a value at line 1 column 5") := by decide +kernel
example : kept (str! "{\"a\":1") = some (str! "EOF while parsing an object at line 1 column 6") := by decide +kernel
example : kept (str! "{\"a\":1 1") = some (str! "expected `,` or `}` at line 1 column 8") := by decide +kernel
example : kept (str! "{\"a\":1,") = some (str! "EOF while parsing a value at line 1 column 7") := by decide +kernel
example : kept (str! "{\"a\":1,}") = some (str! "trailing comma at line 1 column 8") := by decide +kernel
example : kept (str! "{}a") = some (str! "trailing characters at line 1 column 3") := by decide +kernel
example : skipped (str! "{") = some (str! "EOF while parsing an object at line 1 column 1") := by decide +kernel
example : skipped (str! "{1") = some (str! "key must be a string at line 1 column 2") := by decide +kernel
example : skipped (str! "{\"a\"") = some (str! "EOF while parsing an object at line 1 column 4") := by decide +kernel
example : skipped (str! "{\"a\" 1") = some (str! "expected `:` at line 1 column 6") := by decide +kernel
example : skipped (str! "{\"a\":1 1") = some (str! "expected `,` or `}` at line 1 column 8") := by decide +kernel
example : skipped (str! "{\"a\":1,}") = some (str! "key must be a string at line 1 column 8") := by decide +kernel
example : skipped (str! "{\"a\":[{}, null], \"b\":true}") = none := by decide +kernel
example : skipped [] = some (str! "EOF while parsing a value at line 1 column 0") := by decide +kernel
example : skipped (str! "a") = some (str! "expected value at line 1 column 1") := by decide +kernel

/-! Depth -/
example : kept (List.replicate 127 '[') = some (str! "recursion limit exceeded at line 1 column 127") := by decide +kernel
example : kept (List.replicate 126 '[') = some (str! "EOF while parsing a list at line 1 column 126") := by decide +kernel
example : skipped (List.replicate 200 '[' ++ List.replicate 200 ']') = none := by decide +kernel

/-! Headers -/
example : header (str! "{\"typ\":1}") =
    some (str! "invalid type: integer `1`, expected a string at line 1 column 8") := by decide +kernel
example : header (str! "{\"typ\":null}") =
    some (str! "invalid type: null, expected a string at line 1 column 11") := by decide +kernel
example : header (str! "{\"typ\":1.5}") =
    some (str! "invalid type: floating point `1.5`, expected a string at line 1 column 10") := by decide +kernel
example : header (str! "{\"typ\":1e20}") =
    some (str! "invalid type: floating point `100000000000000000000`, expected a string at line 1 column 11") := by decide +kernel
example : header (str! "{\"typ\":1e-7}") =
    some (str! "invalid type: floating point `0.0000001`, expected a string at line 1 column 11") := by decide +kernel
example : header (str! "{\"typ\":-0}") =
    some (str! "invalid type: floating point `-0`, expected a string at line 1 column 9") := by decide +kernel
example : header (str! "{\"typ\":12.5}") =
    some (str! "invalid type: floating point `12.5`, expected a string at line 1 column 11") := by decide +kernel
example : header (str! "{\"typ\":18446744073709551616}") =
    some (str! "invalid type: floating point `18446744073709552000`, expected a string at line 1 column 27") := by decide +kernel
example : header (str! "{\"typ\":0.1}") =
    some (str! "invalid type: floating point `0.1`, expected a string at line 1 column 10") := by decide +kernel
example : header (str! "{\"typ\":[]}") =
    some (str! "invalid type: sequence, expected a string at line 1 column 7") := by decide +kernel
example : header (str! "{\"typ\":{}}") =
    some (str! "invalid type: map, expected a string at line 1 column 7") := by decide +kernel
example : header (str! "{\"alg\":1}") = some (str! "expected value at line 1 column 8") := by decide +kernel
example : header (str! "{\"alg\":{\"ES256\":1}}") =
    some (str! "invalid type: integer `1`, expected unit at line 1 column 17") := by decide +kernel
example : header (str! "{\"alg\":{\"ES256\":null,") = some (str! "expected value at line 1 column 20") := by decide +kernel
example : header (str! "{\"alg\":{\"ES256\":null") = some (str! "EOF while parsing an object at line 1 column 20") := by
  decide +kernel
example : header (str! "{\"typ\":\"a\",\"typ\":\"b\"}") =
    some (str! "duplicate field `typ` at line 1 column 16") := by decide +kernel
example : header (str! "\"a\"") =
    some (str! "invalid type: string \"a\", expected struct ProofJwtHeader at line 1 column 3") := by decide +kernel
example : header (str! "true") =
    some (str! "invalid type: boolean `true`, expected struct ProofJwtHeader at line 1 column 4") := by decide +kernel
example : header (str! "a") = some (str! "expected value at line 1 column 1") := by decide +kernel
example : header (str! "{\"typ\":\"a\"}") = some (str! "missing field `alg` at line 1 column 11") := by decide +kernel

/-! Bodies -/
example : body (str! "false") =
    some (str! "invalid type: boolean `false`, expected struct ProofJwtBody at line 1 column 5") := by decide +kernel
example : body (str! "-1") =
    some (str! "invalid type: integer `-1`, expected struct ProofJwtBody at line 1 column 2") := by decide +kernel
example : body (str! "{}") = some (str! "missing field `aud` at line 1 column 2") := by decide +kernel
example : body (str! "{\"aud\":\"a\",\"iat\":\"1\"}") =
    some (str! "missing field `nonce` at line 1 column 21") := by decide +kernel
example : body (str! "{\"aud\":\"a\",\"iat\":\"1\",\"nonce\":\"n\"}") = none := by decide +kernel
example : body (str! "{\"aud\":\"a\",\"iat\":\"1\",\"nonce\":\"n\"}x") =
    some (str! "trailing characters at line 1 column 34") := by decide +kernel
example : body (str! "[]") =
    some (str! "invalid length 0, expected struct ProofJwtBody with 7 elements at line 1 column 2") := by decide +kernel
example : body (str! "[null,\"a\",null,\"1\",\"n\",null,null,1]") =
    some (str! "trailing characters at line 1 column 34") := by decide +kernel
example : body (str! "[null,\"a\",null,\"1\",\"n\",null,null,]") =
    some (str! "trailing comma at line 1 column 34") := by decide +kernel
example : body (str! "[null,\"a\",null,\"1\",\"n\",null,null]") = none := by decide +kernel
example : body (str! "[null,\"a\",null,\"x\"]") =
    some (str! "input contains invalid characters at line 1 column 18") := by decide +kernel

end Oid4vci.Tests
