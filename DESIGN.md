# Formal model of openid4vc-rs (crate `openid4vci`) in Lean 4

Source: `/repo/crates/openid4vci/src` (all paths below are relative to it). The code is not run;
the model was written by reading it, and every definition cites file and lines.

## 1. Architecture

```
Verif/Base/     Str, Res, Utf8, Base64, Percent, Json (printer+parser), Serde (derive semantics)
Verif/Model/    the crate, function by function
Verif/Spec/     small independent specifications used in theorem statements
Verif/Lemmas/   helper lemmas
Verif/Props/    the property theorems (one theorem family per property) with non-vacuity examples
Verif/Tests/    the repository's own unit-test vectors replayed against the model in the kernel
```

* `String` is `List Char` (`Str`): Lean `Char` is a Unicode scalar value, exactly Rust's `char`.
* `Vec<u8>` is `List UInt8`; `u32`/`u64` are `UInt32`/`UInt64`.
* `Result<T,E>` is `Res E T` with a third constructor `panic` so that panic paths are explicit.
* `HashMap` is an association list with an arbitrary (universally quantified) iteration order.
* `DateTime<Utc>` is an `Int` number of nanoseconds since the epoch; `Utc::now()` is a parameter `now`.
* Third-party behaviour that lives outside the repository and is not a plain codec (`ssi_dids`,
  `ssi_jwk`, chrono's text format) is a parameter record `Ext`; theorems hold for *every* `Ext`
  unless a law about it is an explicit hypothesis. A concrete `Ext` is provided for witnesses.
* base64 (URL_SAFE_NO_PAD), percent-encoding, UTF-8, serde_json's printer and parser and the
  derive(Serialize, Deserialize) behaviour of the crate's types are modelled concretely and proved
  to invert each other.

## 2. Properties: what is modelled, how it is proved

Verdicts: H = holds, proved in full; R = the code violates the property as documented: the negation
is proved (witness, or universally) and the part that does hold is proved as `_partial`.

| id | model | proof plan | verdict expected |
|----|-------|------------|------------------|
| C01 | `evaluateAccessTokenRequest` | case analysis to an independent accept predicate (iff) | H |
| C02 | same | corollary, stated separately | H |
| C03 | same | corollary | H |
| C04 | same + `createOffer` | unfold | H |
| C05 | `GrantType.validate`, `ilog10` over `UInt64` | log bound: accepted iff < 10^9; 9-digit witnesses refute | R |
| C06 | `evaluateAccessTokenRequest` | two-run lemma | H |
| C07 | same | decision table as a separate spec function, proved equal | H |
| C08 | same | two-run witness refutes; partial: requests without PIN | R |
| C09 | `CredentialIssuerMetadata.validate` (HashSet insert loop) | induction on list, iff `Nodup` of ids | H |
| C10 | `CredentialOrId.resolve` | induction, permutation lemma | H |
| C11 | `resolveAll` loop | induction | H |
| C12 | `createOffer` | iff, output equations, error precedence | H |
| C13 | `createOffer` | ids: proved; inline: refuted | R |
| C14 | `urlEncode`, JSON printer/parser, serde | composition of inversion lemmas; recursion limit 128 refutes for deep contexts | R |
| C15 | percent-encoder | induction on bytes | H |
| C16 | `createOffer` | deep link has no `?`: refuted universally; with endpoint: proved | R |
| C17 | `ProofJwt.fromStr` | composition of inversion lemmas | H |
| C18 | `ProofJwt.fromStr` | extra segments ignored: refuted; at least two segments: proved | R |
| C19 | `validate` functions | case-fold lemma, iff | H |
| C20 | `ProofJwt.verify` | iff with `≤ exp`; refuted at `now = exp` | R |
| C21 | `ProofJwt.verify` | order reasoning | H |
| C22 | `evaluateCredentialRequest` | inversion of the success path; plus full iff | H |
| C23 | same | corollary | H |
| C24 | same | corollary, both directions | H |
| C25 | same, `Ext` for DID library | inversion | H |
| C26 | same + `preEvaluate` | two-call lemma | H |
| C27 | same | witness refutes; partial: the returned algorithm is the header's | R |
| C28 | same | witness refutes; partial: result independent of `exp`/`nbf` values only via message | R |
| C29 | `extractSignature` | witness refutes; partial: no dots in the claims | R |
| C30 | `extractSignature` | witness refutes; partial: exact for dot-free claims | R |
| C31 | `toSignableMessage` | universally refuted (`{` is not base64url) | R |
| C32 | `toSignableMessage` | witness refutes for unsigned; injective when signed (JSON text is self-delimiting) | R |
| C33 | three entry points | two proved, one refuted | R |
| C34 | `evaluateCredentialRequest` | refuted; partial: credential is the requested one | R |
| C35 | `createCredentialSuccessResponse` | refuted; partial: format is the request's | R |
| C36 | same | refuted for `None`; partial: at most one, exactly one iff supplied | R |
| C37 | `CredentialFormatProfileOrEncoded.tryFrom` | codec inversion (nesting bound trivially met: no free JSON in these formats) | H |
| C38 | both response constructors | one proved, one refuted | R |
| C39 | conversions | case analysis | H |
| C40 | serde derive of the enums | refuted universally | R |
| C41 | discriminants, strum names | case analysis over four enums | H |
| C42 | `ReturnObject` | induction over warning sequences | H |
| C43 | `toString` / `fromStr` | refuted universally | R |
| C44 | base64 | induction on 3/4-groups | H |
| C45 | JSON printer/parser | induction on the value | H |
| C46 | all entry points with explicit `panic` | refuted by chrono overflow; partial under range and DID-library law | R |
| C47 | flatten serialisation | refuted; partial for objects without the reserved keys | R |
| C48 | serde of metadata | refuted; partial | R |
| C49 | serde of token request | refuted universally; own format inverts | R |
| C50 | whole flow | composition | H |
| C51 | `evaluateCredentialRequest` | order reasoning, two runs | H |
| C52 | history of evaluations | refuted for every accepting request; partial: determinism | R |
| C53 | header deserialiser | refuted; partial: first member in document order decides | R |
| C54 | serde struct deserialiser | duplicate-detection lemma | H |
| C55 | percent codec, UTF-8 | induction | H |
| C56 | chrono's printer and parser | calendar arithmetic, field-by-field inversion | H |
| C57 | `ProofJwtBody.de` | refuted for every JWT with a numeric time claim; texts accepted | R |
| C58 | struct deserialisers | refuted (arrays, `{"alg": null}`); exact list of accepted shapes | R |
| C59 | `ProofJwtBody.de` | iff against a member-by-name specification | H |
| C60 | `evaluateCredentialRequest`, `preEvaluate` | decision tables as separate specifications, proved exact and exclusive | H |
| C61 | `information()` of all error types | case analysis, injectivity of the printed values | H |
| C62 | same, and the call sites | inversion of the failing paths | H |
| C63 | every deserialiser | iff against document predicates in `Spec/Documents` | H |
| C64 | every serialiser | composition of C63 and C65 | H |
| C65 | JSON parser | soundness and completeness against the inductive RFC 8259 grammar | H |
| C66 | UTF-8 coder | iff against the RFC 3629 table | H |
| C67 | `ProofJwt.fromStr` | composition of C44, C59, C63, C65, C66 | H |
| C68 | `see`, `fromJson` of the documents | composition of C63 with the grammar of what each type asks for | H |
| C69 | `Options.de`, `CNonce.de`, `ProofJwt.de` | iff against member descriptions (`Spec/Options`), round trip | H |
| C70 | both evaluations, with and without settings | relation between two outcomes | H |
| C71 | `toReturnObject`, `ErrorInformation.ser`, printer | injectivity of the text of outcomes | H |
| C72 | `CredentialOrIds.ofVec/ofSlice`, `createOffer` | position-wise correspondence | H |
| C73 | both evaluations | invariance under every change of unchecked input | H |
| C74 | `Chrono.parseTime` | iff against the format relation, RFC 3339 as a part of it | H |
| C75 | `AccessTokenType.tryFrom/de` | refutation, all other spellings rejected | R |
| C76 | `GrantType.de` | refutation, every string PIN rejected | R |
| C77 | `createOffer` | refutation, any inline format offered | R |
| C78 | `createCredentialSuccessResponse` | refutation, nonce without influence | R |
| C79 | `CredentialOffer.de` | refutation, absent grants rejected | R |
| C80 | `CredentialIssuerMetadata.validate` | refutation, any endpoint passes | R |
| C81 | `CredentialIssuerMetadata.validate` | refutation, any display passes | R |
| C82 | `CredentialSubject.de` | refutation, nested claims dropped | R |
| C83 | `evaluateCredentialRequest`, `extractKeyAndAlg` | refutation, any algorithm with the same key | R |
| C84 | `jwkToPublicKeyBytes` | refutation, exact set of usable keys | R |
| C85 | `ProofJwtHeader.de` | refutation, standard key forms dropped | R |
| C86 | `preEvaluateCredentialRequest` | refutation, exact set of passing requests | R |
| C87 | `createCredentialSuccessResponse` | refutation, lifetime may be missing | R |
| C88 | all operations of `CredentialIssuer` | exact sets of error kinds with a witness each | H |
| C89 | `base64Encode`, `base64Decode` | digits in base 64, numbers as in C44 | H |
| C90 | all `ser` definitions | tables of member names, relations for the results | H |
| C91 | `createAccessTokenErrorResponse`, `createCredentialErrorResponse`, descriptions | refutation, own descriptions are ASCII | R |
| C92 | `CredentialSuccessResponse.ser`, `CredentialFormatProfileOrEncoded.ser` | refutation, every credential is wrapped | R |
| C93 | `serOpt` members of all documents | refutation, exact list of `null` members | R |
| C94 | `CredentialFormatProfile.validate` | refutation, nothing is checked | R |
| C95 | `CredentialIssuerMetadata.validate` | refutation, nothing is checked | R |
| C96 | `ProofJwtBody.fromSlice`, `Json.looseSlice` | refutation, arbitrary octets in skipped members | R |
| C97 | `description`s of the four enums | catalogue by code, cases | H |
| C98 | `Json.readFloat`, `Json.readNumber` | error bounds of truncation and rounding over the rationals | H |
| C99 | `Json.printFloat`, `decimalAt`, `layout` | correctness of the search for the shortest decimal over the rationals; uniqueness of texts | H |
| C100 | `Json.printFloat`, `Json.readFloat` | error bounds of scaling with rounded powers of ten; exact arithmetic for short decimals; numbers next to the largest double by cases | R |
| C101 | `ser` and `information` of the four enums | fields per variant, objects as sorted maps | H |
| C102 | `Chrono.showTime`, `Chrono.dispTime` | digit strings of fixed length are determined by their value | R |
| C103 | `validate` of all types, `tryFrom` of codes, `ProofJwt.fromStr` | conditions of the checks; digits of numbers | R |
| C104 | `evaluateCredentialRequest` | exact acceptance condition of both calls; reading a JWT is a function of its text | H |
| C105 | `evaluateCredentialRequest` on histories | C104 pairwise; the accepted example twice | R |
| C106 | `evaluateAccessTokenRequest` | decision table of C07 | H |
| C107 | `evaluateAccessTokenRequest` | exact acceptance (C01) | H |
| C108 | `readDateTime` (Model/Leap) | the text format as relations (C74), arithmetic of seconds | R |
| C109 | `Moment.written`, `readDateTime` | the written text as a text of the format | R |
| C110 | `checkExpiry`, `inPeriod` | arithmetic of seconds and fractions | H |
| C111 | `Did.parse`, `evaluateCredentialRequest`, `preEvaluateCredentialRequest` | which texts are split how | H |
| C112 | the same | key ids of the repository's tests | R |
| C113 | `Did.display`, `extractKeyAndAlg` | printing inverts reading | H |
| C114 | `Base64.engine`, `fromStr` | blocks of eight against groups of four, invariant of the last block | H |
| C115 | `createOffer`, `urlencode`, printing | last `=` of the URL, injectivity of the encodings | H |
| C116 | `evaluateAccessTokenRequest` | decision table of C01 | H |
| C117 | all of the above | composition of the round trips and of C50 | H |
| C118 | all readers and writers | the documents of C63: maps without duplicates, normal values, no deeper nesting than the text | H |
| C119 | `createOffer`, `resolveAll`, `evaluateCredentialRequest` | C10, C11, C12 under two metadata | H |
| C120 | `preEvaluate`, `evaluateCredentialRequest`, `fromStr`, `verify` | exact acceptance conditions of each, one definition of a valid key proof over the token text | H |
| C121 | `urlencode`, `createOffer` | normal form as an inductive predicate; injectivity of decoding on it | H |
| C122 | `Reading`, `readHeader`, `readBody`, `fromStr` | the reporting reader reads what the main model reads, never gets stuck and depends on what it has seen; run over a good beginning | H |
| C123 | `Shape`, `see`, `fromJson` of all documents | soundness and completeness of the shape-directed reader; cancellation of the first member | H |
| C124 | `parseError`, `withTimes` | the parts of the format with their ends and faults as relations; determinism of the scanner | H |
| C125 | `createOffer`, `evaluateAccessTokenRequest`, `preEvaluateCredentialRequest`, `evaluateCredentialRequest`, `ProofJwt.verify` | a state machine around the library's functions; an invariant over all histories; C01, C12, C26, C67, C119, C120 | H |
| C126 | `Document.select`, `extractKeyAndAlg`, `evaluateCredentialRequest` | first occurrence in the concatenated lists; uniqueness gives invariance under rearrangement | H |
| C127 | the same | a document with another id and the same method ids | R |
| C128 | `JwkRules.read`, `extractKeyAndAlg` | serde's reading of the members, flattened and tagged, against a specification by members | H |
| C129 | the same | the same key whichever curve is named | R |
| C130 | `MethodMap.get`, `extractKeyAndAlg` | case analysis on the four forms of key material against the uniqueness of one | H |
| C131 | `library`, `evaluateCredentialRequest`, `CredentialRequest.fromJson` | composition of C67, C68, C74, C126, C130 and the exact signature condition | H |
| C132 | `Debug.string`, `headerReport`, `bodyReport` | prefix code for the quoting; run of the reader after a good beginning | M |
| C133 | `evaluateCredentialRequest`, `JwtError.information` | comparison of two runs with different expected nonces | R |
| C134 | `headerReport`, `bodyReport`, `fromStr` | every reader says the same whatever follows what it has looked at, by composition (`Steady`) | H |
| C135 | `ValidationError.ofPath`, `pathText` | unique decomposition of the text into segments, induction over the path | R |
| C136 | `Json.print`, `resultText`, `createOffer`, `ProofJwt.toStr` | induction over documents and their printed numbers and strings | M |
| C137 | `headerReport`, `bodyReport`, `ProofJwt.fromStr`, `evaluateCredentialRequest`, `evaluateAccessTokenRequest` | a bound kept by every reader; list of all token errors | M |
| C138 | `ErrorInformation.ser`, `information`, `informationOmitting` | cases over the variants by C101 | R |
| C139 | `evaluateCredentialRequest`, `preEvaluateCredentialRequest`, `ProofJwt.fromStr`, `toSignableMessage` | through the exact JWT grammar (C67), C18 and C32 | R |
| C140 | `headerReport`, `bodyReport`, `document` | completeness of the readers without regard to what follows; cut documents by C122 | M |
| C141 | every `ser` | member names of each type are distinct constants, maps and `serde_json::Value`s have theirs once; flattened ones must be disjoint | R |
| C142 | every `de` | congruence of the serde combinators for `Reordered`, type by type | R |
| C143 | `createOffer`, `evaluateCredentialRequest`, `createCredentialSuccessResponse`, … | relational congruence: `Same*` inputs give `SameOutcome`; `ser` maps `Same*` to `Reordered` | R |
| C144 | every `de` | `NullIgnored de`: adding `(name, null)` with a fresh name anywhere leaves `de` unchanged | R |
| C145 | every `fromJson`, `ProofJwt.fromStr` | `Grammatical s → Grammatical s' → SpacedAlike s s' → fromJson s = fromJson s'` | R |
| C146 | every `de` | `ReadAlike (KnownObject table) de`: only the members in the documented table matter | R |
| C147 | every `fromJson`, `ProofJwt.fromStr`, `evaluateCredentialRequest` | `JsonText j s → JsonText j s' → fromJson s = fromJson s'` | R |
| C148 | `evaluateCredentialRequest`, `preEvaluateCredentialRequest`, `information`, `display` | `evaluate … = err e → display.length ≤ 330·sent + 6·own + 108·K + 3500` | R |
| C149 | `readHeader`, `readBody`, `document`, `report` | `ReadableHeader (b ++ rest) → ∃ m ∈ EOF messages, Report b m b.length text` | R |
| C150 | `readHeader`, `readBody`, `document`, `report` | `ReadableHeader (b ++ rest) → Report b m b.length text ∧ FitsPlace (place b) m` | R |
| C151 | every `fromJson` | `fromJson s = some a → (fromJson (s ++ t) = some b ↔ Ws t ∧ b = a)` | R |
| C152 | `ProofJwt.fromStr`, `evaluateCredentialRequest`, `preEvaluateCredentialRequest` | `fromStr s = ok a → fromStr (s ++ t) = ok b → b.header = a.header ∧ b.body = a.body`, `SameHolder` | R |
| C153 | `evaluateCredentialRequest`, `ProofJwt.verify`, `createCredentialSuccessResponse`, `createAccessTokenSuccessResponse` | `evaluate (now + δ) (moveOptions δ) = (evaluate now).mapErr (moveError δ)` | R |
| C154 | `headerReport`, `bodyReport` (`nextKey`, `string`, `escape`, `hexEscape`, `colon`) | `BodyStart kvs t → Spoilt y k m → Report b m (t.length + 1 + s.length + y.length)` | R |

No property was judged inexpressible.

## 3. Trusted base

* Lean 4.33.0's kernel. `AXIOMS.md` lists, for every theorem of the manifest, the axioms it depends
  on; only `propext`, `Classical.choice` and `Quot.sound` occur. No `sorry`, no `native_decide`, no
  axiom of our own. `decide +kernel` is evaluation by the kernel.
* That the definitions in `Verif/Model` say what the cited lines do (read by hand). `Verif/Tests`
  replays all of the repository's unit tests on the model; one of the repository's assertions does
  not hold (section 6).
* That the definitions in `Verif/Base`, `Verif/Model/Ext` and `Verif/Model/Chrono` say what the
  third-party crates do (section 4). The sources of these crates were not available (no network), so
  these parts are written from knowledge of the crates at the versions in `Cargo.lock`.
* That the statements say what is meant. They use the definitions of `Verif/Spec` (which do not
  refer to the functions they describe) and the data types of the model.

## 4. Third-party semantics

Versions from `Cargo.lock`: chrono 0.4.24, serde 1.0.163, serde_json 1.0.96, base64 0.21.0,
urlencoding 2.1.2, ssi-dids and ssi-jwk 0.1.0, strum 0.24.1, thiserror 1.0.40.

Modelled concretely:

* base64 `URL_SAFE_NO_PAD`: decoding is strict (no padding, no non-zero trailing bits); `STANDARD`:
  canonical padding required. `Model/Engine.lean` describes the decoder itself, block by block with its
  errors and their texts; C114 proves that it reads the texts that the main model's `Base64.decode` reads.
* urlencoding: every byte outside `A-Z a-z 0-9 - _ . ~` becomes `%XX` with upper-case digits.
* serde_json text: compact printer; parser with recursion limit 128, 64-bit integers, escapes,
  surrogate pairs; `from_slice` checks UTF-8 of what it reads and skips what it does not
  (`looseSlice`). Objects keep all their members in order, because the
  derived deserialisers see them one by one.
* serde_json's errors for the header and body of a proof (`Base/Reading.lean`, `Model/Unreadable.lean`, used
  through `withJson`): the order in which the octets are looked at, the message and the place of every
  error, `fix_position`, and the closing bracket that is looked for even after an error. C122 proves that this
  reader reads exactly the documents of the main model. Messages and places are written down from the published
  sources of the crates; `{:?}` of strings is a parameter (`Texts`) unless `withDebug` of `Model/Debug.lean` is used; chrono's own
  messages are one too, described in `Model/TimeError.lean` (C124).
* `serde_json::Value` as a target (metadata's further fields, error details, contexts): sorted keys,
  last value wins, no duplicate keys.
* serde derive: structs from objects (duplicate known fields are errors, unknown ones are ignored,
  missing `Option`s are `None`) and from arrays; `flatten`; internally tagged and untagged enums
  through buffered content; `default`; `skip_serializing_if`; unit variants from strings or from
  `{"name": null}`; renames.
* chrono: `DateTime<Utc>` to and from text (RFC 3339 with chrono's leniencies), calendar arithmetic,
  range, and the overflow panic of `+`.
* serde_path_to_error 0.1.11: how paths are written (`Model/PathError.lean`, C135); which paths are left out of messages
  is a parameter.
* strum `AsRefStr` (variant name), thiserror messages, `#[repr(u32)]` discriminants.

Left open as parameters (record `Ext`), so theorems hold whatever they do:

* `ssi_dids` (unless `withDocuments` is used, selecting in documents, for which `Model/Document.lean` describes
  `select_object`; the repository's tests confirm the answer `Resource not found`; the key of a
  verification method is a parameter unless `withMethods` of `Model/Method.lean` is used, which leaves the encodings open; and, unless `withDids` is used, parsing and printing DID URLs, for
  which `Model/Did.lean` describes `DIDURL::from_str` and `Display`; the repository's tests confirm that
  `did:example/key1` is read and that a missing key is reported under the whole key id), `ssi_jwk`
  (JWKs; with `withJwks` of `Model/Jwk.lean` only the parts named in `JwkRules` are left open), the texts of
  JSON error messages (unless `withJson` is used) and (unless `withBase64` is used) of base64 errors, whether serde accepts `Some(Null)` in a flattened
  `Option<Value>`, and (unless `withChrono` is used) the date-time format.

Simplifications:

* In the main model leap seconds (chrono's nanosecond field above 10^9) are not represented: an instant is a
  number of nanoseconds, and a text with second 60 denotes the instant one second after second 59.
  `Model/Leap.lean` describes reading, writing and adding with leap seconds as chrono has them, separately;
  `C108_model`, `C109_ordinary`, `C110_compare` and `C110_ordinary` say where the main model differs: in the
  leap second itself and the second after it, and at both ends of the range of dates. One difference is a
  panic in chrono while a claim is read (C108).
* `to_lowercase`/`to_uppercase` map ASCII letters only. For the two comparisons in the code the
  outcome is the same: the only non-ASCII characters whose mapping is a single ASCII letter are
  U+212A (to `k`), U+0131 (to `I`) and U+017F (to `S`), and `openid4vci-proof+jwt` has no `k` and
  `JWT` neither `I` nor `S`. `C19_unicode_typ` and `C19_unicode_proofType` prove it from the facts of
  the Unicode tables listed in `Spec/Unicode.lean` (checked against Unicode 14 with a script).
* Numbers that are not 64-bit integers are finite doubles (`Base/Double.lean`), read as serde_json does
  without its `float_roundtrip` feature (`parse_decimal`, `f64_from_parts`) and written as the shortest
  decimal that denotes them. That ryu's tables and 128-bit arithmetic compute this decimal is taken
  from ryu's documentation. No type of the crate has a floating-point field; floats occur in the JSON
  it keeps as it is. Exponents beyond `i32` are taken at their value; serde_json decides those by their
  sign, with the same outcome.
* serde_json skips members it ignores without checking UTF-8 validity, lone surrogates, number ranges or
  nesting inside them, and so does the model: for octets in the body of a proof JWT (`Base/Skip.lean`), the
  one document of this kind that the library itself reads, and for texts of the other documents, which
  applications read with `from_str` (`Base/Shape.lean`: each type has a `shape` beside its `de`, and
  `fromJson` looks at a text accordingly). A value that does not fit its type is read to its end before it is
  refused; both orders refuse the same texts.
* A struct nested in buffered content (`flatten`, untagged, internally tagged) is read from the
  buffered tree; numbers in the buffer are kept as in the text.
* `HashMap` is an association list; theorems quantify over every order.
* Recursion limits apply to parsing only; printing deep values is assumed not to exhaust the stack.
* Memory exhaustion and stack overflow are not modelled.

## 5. What is modelled of the repository

All of: `access_token/mod.rs`, `access_token/error.rs`, `access_token/error_response.rs`,
`credential_issuer/mod.rs`, `credential_issuer/error.rs`, `credential_issuer/error_code.rs`,
`jwt/mod.rs`, `jwt/error.rs`, `types/*.rs`, `error.rs`, `error_response.rs`, `macros.rs`,
`return_object.rs`, `validate.rs` and `base.rs`.

Two facts about the API that the model does not carry as types: `to_return_object` needs
`T: Serialize + Clone`, and `CredentialOffer`, the responses of (pre-)evaluation and `ErrorResponse` are not
`Clone`, so applications can use it directly only for results such as `AccessTokenResult<()>` and
`(AccessTokenSuccessResponse, DateTime<Utc>)`; C71 is stated for every `T` written faithfully.
chrono refuses the lower-case `t` that RFC 3339 section 5.6 permits as separator (C74_lower_case).

Not modelled: `Debug`/`Clone`/`Hash` derives and doc comments. The one-argument arm of `error_impl!`, which
nothing uses, is modelled for C138 only.

Error variants no operation reports (C88_never): `InvalidRequestedCredential`, `ExpiredCNonce`,
`CredentialAndAcceptanceTokenSupplied`, `EvaluteCredentialRequestOptionsNotSupplied` and
`InvalidCredentialOfferEncoding` (the latter only if JSON serialisation could fail).

## 6. Disagreements between the code and its documentation

For each of these the negation is proved (`..._refuted`, with a witness, usually together with a
universal statement of the violation), and what does hold is proved as `..._partial`.

* **C05** PINs longer than 8 digits are rejected. Violated: checked_ilog10 > 8 accepts every 9-digit PIN (C05_refuted, C05_every_nine_digit_pin_accepted). Proved: PINs of at most 8 digits pass, PINs of at least 10 digits are rejected. C05_iff_partial: exactly at most nine digits.
* **C08** A wrong code reveals nothing about the PIN. Violated: the PIN is compared before the code (C08_refuted, C08_pin_oracle). Proved partially: see the docstring of C08_wrong_code_partial. C08_iff_partial states exactly when two PINs give the same result.
* **C13** create_offer only offers credentials the issuer supports. Violated: inline credentials are not compared with the metadata. Proved for ids. C13_iff_partial: exactly when every inline credential passed is supported.
* **C14** A wallet recovers the offer from the offer URL. Violated: serde_json's recursion limit makes offers with inline credentials nested deeper than 127 levels unreadable (C14_refuted), and some double-precision numbers in contexts change (C14_number_changed). C14_recovered_iff_partial states exactly which offers are recovered, C14_near_partial how the others differ.
* **C16** The offer URL carries credential_offer as a query parameter. Violated: the deep link has no '?' before credential_offer (for every created deep link), and an endpoint that already has a query is broken. Proved for endpoints without query and fragment. C16_iff_partial: unless the endpoint has such a parameter of its own, the offer is found exactly for endpoints without query and fragment.
* **C18** Proof JWTs with a wrong number of segments are rejected. Violated: segments after the third are ignored (C18_refuted, C18_trailing_segments_ignored). Proved: fewer than two segments are rejected. C18_iff_partial: a string is read like its first three segments.
* **C19** The typ header and proof_type are compared case-insensitively and exactly. C19_unicode_typ and C19_unicode_proofType: the same for the full Unicode case mappings; the model's own mappings cover ASCII only.
* **C20** The JWT validity window is enforced as documented. Violated: now = exp is accepted (C20_refuted, C20_accepted_at_exp). Proved: exactly nbf <= now <= exp is accepted, with the documented errors otherwise.
* **C27** alg none and symmetric algorithms are rejected. Violated: no algorithm is rejected during evaluation (C27_refuted, C27_any_alg_accepted). Proved: the algorithm is reported to the caller.
* **C28** Expired or not-yet-valid proofs are rejected. Violated: evaluation never looks at exp and nbf (C28_refuted, C28_any_window_accepted). Proved: a proof outliving the nonce is not accepted after exp.
* **C29** A proof without a signature is rejected. Violated: the signature is cut from the decoded JSON text, so an unsigned proof passes when header or body contains a dot, as issuer URLs do (C29_refuted, C29_dotted_audience_accepted). C29_iff_partial states exactly when it is rejected.
* **C30** The returned signature is the signature of the JWT. Violated: for a body with a dot the returned bytes are not the signature (C30_refuted). C30_iff_partial states exactly when they are; and they are the base64url text, not the decoded bytes.
* **C31** The returned message is what the holder signed. Violated universally: the signable message is never the JWS signing input (C31_never_signing_input). Proved partially: it is the unencoded header and body when those have no dots.
* **C32** The signable message commits to header and body. Violated: an unsigned JWT with exactly one dot in its texts has part of its body left out of the message (C32_refuted, C32_body_not_covered, C32_collide). Proved for all other JWTs (C32_commits_partial); the header is always covered, and the pairs that collide are exactly characterised (C32_same_partial, C32_collide).
* **C33** proof_type is enforced on every path. Violated: evaluate_credential_request never checks proof_type (C33_refuted, C33_evaluate_ignores_type). Proved for pre-evaluation and the success response.
* **C34** Only offered and supported credentials are granted. Violated: the requested credential is compared with neither offer nor metadata (C34_refuted, C34_any_credential_granted). Proved: the requested credential is the one returned.
* **C35** The success response names the format of the credential it carries. Violated: the format name is copied from the request whatever credential is passed (C35_refuted, C35_wrong_format). C35_iff_partial states exactly when it is right.
* **C36** The success response carries exactly one of credential and acceptance_token. Violated: neither credential nor acceptance token is accepted (C36_refuted, C36_neither). Proved when the caller supplies one. C36_iff_partial: exactly when the caller supplies one.
* **C38** c_nonce lifetimes never appear without a c_nonce. Violated: the token response is never validated (C38_refuted, C38_unvalidated). Proved for credential responses; C38_validate_iff characterises the unused validator. C38_iff_partial: exactly when the caller asks for it.
* **C40** Serialised error responses carry the documented code strings. Violated universally: the codes are serialised as Rust variant names (C40_refuted, C40_never_documented). Proved: distinct codes have distinct strings, and each is the documented code in camel case (C40_spelling_partial).
* **C43** A ProofJwt converted to a string parses back. Violated universally: the string form never parses back (C43_never_parses). Proved: it determines the JWT (C43_injective_partial).
* **C46** No input makes request evaluation panic. Violated: nonce lifetimes past the end of chrono's range, and DID URLs selecting a whole document, panic (C46_refuted, C46_overflow). C46_evaluate_panics_iff states exactly when; proved for all other entry points.
* **C47** Additional error details cannot make the response unusable or override the code. Violated: details may be non-objects or contain error (C47_refuted, C47_overrides, C47_unserialisable). Proved for absent details and objects without an error member; C47_exact is the complete description.
* **C48** Issuer metadata survives serialisation. Violated: see C48_none_changes, C48_clash_refused, C48_standard_member_ignored, C48_binding_methods_lost. Proved: exactly which metadata is read back unchanged (C48_same_iff_partial), and how the rest differs.
* **C49** Standard token request parameters deserialise. Violated: grant_type as a plain string is rejected (C49_standard_rejected). Proved: own format round-trips.
* **C52** A pre-authorized code is single use. Violated: no state is kept, so a code is accepted again (C52_replay). Proved: each acceptance in a history needs the offer's code. C52_iff_partial: the accepted entries are exactly those of C01, however often they occur.
* **C53** Ambiguous key headers are rejected. Violated: a second key member is ignored (C53_refuted, C53_second_key_ignored). Proved: the first key member in document order is the one used.
* **C57** Time claims are NumericDates. Violated for every JWT: a number as iat, nbf or exp is rejected (C57_refuted, C57_number_rejected), and the library writes none (C57_written_as_text). Proved: date-time strings are accepted (C57_text_partial).
* **C58** Header and body of an accepted JWT are JSON objects. Violated by every body and every header: the claims as a bare array and the object {alg: null} are accepted too (C58_refuted, C58_array_body_accepted, C58_object_alg_accepted). C58_shapes_partial lists the accepted shapes.
* **C75** The token type is case insensitive. Violated by every spelling but Bearer (C75_refuted, C75_other_spelling_rejected). Proved: Bearer is read, exactly.
* **C76** A PIN is a string of up to eight digits. Violated by every PIN: user_pin is a number, a string is rejected, and leading zeros cannot be expressed (C76_refuted, C76_string_rejected). Proved: numbers are read as their value.
* **C77** create_offer fails in every documented case. Violated: inline credentials of any format are offered (C77_refuted, C77_any_format_offered). Proved: the two other documented errors occur.
* **C78** No response is created with an expired nonce. Violated: the nonce is not looked at (C78_refuted, C78_nonce_unchecked). Proved: invalid requests are refused.
* **C79** Offers without grants are read. Violated: an offer without grants is rejected (C79_refuted, C79_absent_rejected). Proved: empty grants are read as no flow.
* **C80** Endpoints in valid metadata use https. Violated: validation does not look at the endpoints (C80_refuted, C80_any_endpoint). Proved: the endpoint is required as a string and read unchanged.
* **C81** One display object per language. Violated: validation does not look at the display objects (C81_refuted, C81_any_display). Proved: the languages are kept when written and read.
* **C82** Claims below a namespace are kept. Violated: CredentialSubject has fixed members, and objects with others are read with these dropped (C82_refuted, C82_nested_dropped). Proved: namespaces are kept.
* **C83** The returned algorithm is one for the returned key. Violated: every accepted request is accepted with any algorithm next to the same key (C83_refuted, C83_any_algorithm). Proved: algorithm and key are those of the header and of the DID document.
* **C84** Only EdDSA keys are used. Violated: octet key pairs are used whatever their algorithm (C84_refuted, C84_any_okp). C84_others_partial states exactly which keys are used.
* **C85** Inline keys in their standard form are read. Violated: jwk and x5c in their standard forms are dropped silently, the header is read without a key (C85_refuted, C85_key_dropped). Proved: string-valued key members are kept. C85_iff_partial: there is a key exactly if the first key member is a string.
* **C86** Pre-evaluation succeeds for every valid request. Violated by every valid request with jwk, x5c or a kid that is no DID (C86_refuted, C86_fails). C86_exact_partial states exactly which requests pass.
* **C87** Nonce and lifetime are supplied together. Violated: a nonce without a lifetime is written without one (C87_refuted, C87_lifetime_missing). Proved: no lifetime without a nonce. C87_iff_partial: exactly when every supplied nonce has a lifetime.
* **C91** Error descriptions are ASCII. Violated: any text is accepted and written (C91_refuted, C91_passed_on). Proved: the descriptions of the library's own errors are ASCII apart from what they repeat of their input.
* **C92** The issued credential is a string or the credential's object. Violated by every response with a credential: it is wrapped in an object whose only member is named Encoded or CredentialFormatProfile (C92_refuted, C92_wrapped). Proved: below the wrapper is what is documented.
* **C93** Members without a value are omitted. Violated: optional members of token and credential responses, metadata, displays and the authorization code grant are written as null (C93_refuted); C93_nulls states exactly which and when. Proved: offers, credentials and claims have no null members.
* **C94** One display object per claim and language. Violated: languages are not checked (C94_refuted, C94_any_claims). Proved: languages survive in what is written.
* **C95** DID binding methods are method names. Violated: binding methods are not checked (C95_refuted, C95_any_method). Proved: the methods survive in what is written.
* **C96** The body of an accepted JWT is UTF-8. Violated: serde_json skips members other than the registered claims without looking at their octets, so a further member with arbitrary octets between quotes is accepted in every body (C96_skipped, C96_refuted). Proved: the header, the names of all members and the values of the registered claims are UTF-8 and JSON.
* **C100** Floating-point numbers survive writing and reading. Violated: serde_json without the feature float_roundtrip scales with rounded powers of ten, so that 9007199254740991.0 and 3e30 come back as other numbers (C100_refuted, C100_short_violated). Proved: exactly which documents survive (C100_survives_iff_partial), that decimals of up to 15 digits with exponents within 22 do, and that every document is read with numbers changed by at most one part in 2^49.
* **C101** The details of an error are its fields. The requested credential and the supported ones in InvalidRequestedCredential are described as their serialisations.
* **C102** Instants are written as RFC 3339 date-times. Violated: instants after the year 9999 or before the year 0 are written with a sign and, if needed, more digits, which is no RFC 3339 date-time (C102_refuted); tokens with such claims are reported with them (C102_violation). Proved: exactly which text is written for every instant, and that it is RFC 3339 exactly in the years 0 to 9999.
* **C103** Validation messages name what is wrong. Violated: the message about a PIN that is too long names one digit less than supplied, since checked_ilog10 is not the number of digits (C103_refuted, C103_never_named; the repository's test with eleven digits expects 10). Proved: all other checks fail exactly on their condition with their message. The messages of the base64 and JSON libraries are parameters.
* **C105** A proof is accepted at most once. Violated: the evaluation keeps no state, and whatever is accepted is accepted again until the nonce expires (C105_replay, C105_refuted). Proved: if the application expects another nonce in each call, no proof is accepted twice, as text or as JWT.
* **C107** An offer is redeemed by one request only. The bound of nine digits instead of eight is the subject of C05.
* **C108** Reading a date-time never panics. Violated: a leap second on -262144-01-01 with the offset that puts it just before the beginning of the library's range passes chrono's overflow check and then panics (C108_panics_iff says exactly which texts). Proved: what every other text is read as, and how the reading of the main model relates to it. Rests on a description of chrono 0.4.24 (to_datetime, add_with_leapsecond).
* **C109** Date-times with leap seconds survive writing and reading. Violated: a leap second that does not follow second 59, which chrono's constructors allow, is written as an ordinary second (C109_violation). Proved: everything else reads back, in particular whatever was read (C109_stable).
* **C110** Lifetimes and periods count leap seconds consistently. The time of the check is taken outside leap seconds, as system clocks give it. Leap seconds between creation and check are not counted, by the library's arithmetic.
* **C111** The subject of a request is the DID of its key id. Rests on a description of DID URLs in ssi-dids 0.1.0 (Model/Did.lean); the theorems about other externals hold for every one.
* **C112** Subjects are DIDs. Violated: only the prefix did: is required, so that did:example/key1#k (the key id of a test of the repository, with a fragment) yields the subject did:example, and did:#k the subject did: (C112_violation). Proved: the subject of a DID URL is its DID, and exactly when the subject is a DID.
* **C113** A missing key is reported under the key id of the token. Rests on a description of DID URLs in ssi-dids 0.1.0 (Model/Did.lean).
* **C114** Undecodable base64 is reported with what is wrong and where. Rests on a description of the decoder of base64 0.21.0 (Model/Engine.lean), proved to read the same texts as the main model.
* **C117** The flow completes over the wire. Three theorems, one for each exchange; the first yields the offer that the others take.
* **C118** Whatever was read can be written and read again. Token requests and responses: C64_token_text. Which numbers survive: C100.
* **C124** A date-time that cannot be read is reported with the first thing wrong with it. Rests on a description of the parser of chrono 0.4.24 (Model/TimeError.lean), which agrees with the one of C108 on the texts that are read.
* **C125** A service which keeps the used codes and nonces issues each credential once, and only to the holder of the key. The service (Spec/Service.lean) is not code of the repository: it is an application that calls the library's functions and keeps what the library does not. Unforgeability is a hypothesis of C125_agreement; the signature scheme is a parameter.
* **C126** The key of a proof is the first verification method of the document with the named id. Documents are modelled from ssi-dids 0.1.0 (Model/Document.lean); whether relative ids and the list publicKey count is left open (SelectRules) and the theorems hold in all cases; the content of a verification method, get_jwk and the parsing of JWKs stay parameters.
* **C127** The document given for a key proof is the document of the named DID. Violated: the id of the document is not looked at, so a document of another DID that lists a method under the key id is accepted (C127_not_looked_at, C127_refuted). Partial: for callers that pass the document of the DID named by pre-evaluation (C127_resolved_partial).
* **C128** The key of a proof is the one its jwk describes. JWKs are modelled from ssi-jwk 0.1.0 (Model/Jwk.lean); the names of algorithms, the inferred algorithm, the reading of base64 and the texts of errors are left open. C128_key assumes of the inferred algorithm that it is not EdDSA for elliptic curve keys.
* **C129** Keys are taken only from the curves of EdDSA. Violated: neither the curve nor the length is looked at, so a key for key agreement (X25519) or of no length is accepted (C129_curve_ignored, C129_refuted), and elliptic curve keys that name EdDSA are too. Partial: no other types of keys (C129_type_partial).
* **C130** The key of a verification method is what its only key material means. Verification methods are modelled from ssi-dids 0.1.0 (Model/Method.lean); base58, hexadecimal and multibase decoding, the keys of the types of methods, and the messages are left open.
* **C131** Which request texts are accepted, in terms of the texts alone. Model/Library.lean instantiates every external; C131_accepted assumes of the inferred algorithms that none is EdDSA for elliptic curve keys. Leap seconds are not represented in this model of chrono (see C108 to C110 for those).
* **C132** A header or body that is no object is reported as what it is. Debug for strings is modelled from Rust's core library (Model/Debug.lean); which characters are shown is a parameter.
* **C133** A rejected credential request does not tell the nonce. Violated: the additional information of a nonce mismatch has the expected nonce (C133_told, C133_refuted), and a proof with it is not rejected for the nonce (C133_used). C133_iff_partial: the reports are the same exactly if the request is rejected before the nonces are compared. Proved: code, name and description tell nothing (C133_summary_partial).
* **C135** The message about a value that cannot be read tells where it is. Violated: names with dots, brackets or a colon and a space read like longer paths or other messages (C135_dotted, C135_brackets, C135_colon, C135_refuted). C135_partial: it holds for all names without these characters. C135_original: the message ends in that of serde_json.
* **C136** Everything written is one line of text. The message of an error alone, outside a JSON text, need not be one line: that of an unknown credential has its id as it is (C136_message).
* **C137** Replies to malformed input are bounded by what was sent. The constant 4100 is for numbers, which are written out in the report (1e300 takes more than 300 characters). The text with which chrono says what it expects is a parameter of at most 200 characters.
* **C138** A report has additional information only if the error has some. Violated: the form of error_impl! that all four enums use gives Some(null) for the errors without fields, which is not skipped (C138_null, C138_refuted); a test of the repository expects it so. The other form leaves it out (C138_omitting), and the two agree on exactly the other errors (C138_forms).
* **C139** A proof cannot be altered without its message or signature changing. Violated: the message is rebuilt from what was read, so every text of the same JWT gives the same message, signature and answer (C139_same). After the signature anything may be appended (C139_appended), and claims of other names may be put into the body, with any value (C139_claim), although the holder never signed them. Who remembers proofs by their text does not recognise a replay. C139_content_partial: equal messages mean equal header and registered claims, for signed JWTs.
* **C140** A header or body that is cut off or runs on is rejected, at that place. The octets behind `}` or `]` play no part in reading the value, so documents are self-delimiting; no readable header or body is the beginning of another one except for whitespace.
* **C141** Every document names each member once. Violated by the two types that flatten a map of the caller's: issuer metadata whose `additional_fields` repeat one of the five names of its own is written with that member twice (two endpoints in `C141_two_endpoints`), and an error response whose additional details contain `error`, `error_description` or `error_uri` likewise. `C141_metadata_partial` and `C141_error_partial` say exactly when this happens; `C141_metadata_unreadable` that the library's own reader then rejects the metadata; `C141_metadata_read` that metadata which was read is not affected; `C141_error_information` that details made of the library's own error information are not. All other documents satisfy the property, proved in full.
* **C142** The order of members means nothing, at any depth. Violated by the header of proofs: of `kid`, `jwk` and `x5c` the flattened enum takes the first in document order, so that swapping two members, which RFC 8259 calls insignificant, selects another key (`C142_header_first`, `C142_refuted`; RFC-conforming intermediaries may do so, though the signature covers the bytes). `C142_header_partial` proves it for headers with at most one of the three. All other types satisfy it, at any depth; those that hold no map need not even have unique names (`Indifferent P` for any hereditary `P`, e.g. `hereditary_true`).
* **C143** The same input gives the same output. Violated where text is made of a map: `serde_json::to_string` writes the entries of a `HashMap` in iteration order, so one and the same offer has several URLs (`C143_urls_differ`) and one and the same credential several encodings (`C143_encoded_differs`), none of which is canonical; who compares, caches or signs them sees different octets. Every decision and every value is independent of the order, proved in full (`C143_token`, `C143_pre_evaluate`, `C143_evaluate`; `C143_offer`, `C143_response` up to the text), the documents in the texts differ in the order of members only (`C143_document_*`), and by C142 are read alike. `C143_url_partial` and `C143_response_partial` prove equality of the text when no map has two entries.
* **C144** A member that is null is read like one that is left out. Violated for three types. `#[serde(default)]` on `proof_type` holds for the absent member only, so `"proof_type": null` is an error (`C144_refuted_proof`). The flattened `Option<ProofJwtAdditionalHeader>` takes the first of `kid`, `jwk`, `x5c`, and if that is `null` the result is `None` although a key follows: a proof with `"kid": null` and a good `jwk` is rejected as having no key (`C144_refuted_header`, `C144_hides`). Unknown members of issuer metadata are kept as they are, so that `null` ones are published again (`C144_refuted_metadata`). All other types are proved in full; these three for all other names (`C144_proof_partial`, `C144_header_partial`, `C144_metadata_partial`).
* **C146** Members a type does not know are ignored, at any depth. Violated at two places. Issuer metadata keeps unknown members in `additional_fields` and writes them again, so that a document with one more is another value (`C146_refuted_metadata`); that is what the field is for, and all other fields are the same (`C146_metadata_partial`). `CredentialFormatProfileOrEncoded` is an externally tagged enum, whose object must have exactly one member: a response with anything beside `Encoded` is rejected (`C146_refuted_response`, `C146_beside`). Inside of the credential and in the rest of the response unknown members are ignored (`C146_response_partial`).

The repository's tests:

* `should_extract_correct_information_for_validation_error` (credential_issuer/error.rs:104-121)
  asserts that the description of a wrapped validation error is its message. The code's description
  is the fixed text of validate.rs:9, so this test fails as written (`Verif/Tests/Repo.lean`).
* `should_evaluate_credential_request` (credential_issuer/mod.rs:972-1040) expects as *signature* the
  end of the audience and the rest of the claims (`example.com","sub":null,...`) for a JWT without
  signature, and as *message* the decoded JSON texts. That is what the code returns, and it is what
  C29, C30 and C31 report as violations.

## 7. Mutation testing

`seeded/LOG.jsonl` records every seeded fault: the definition and the edit, the claim it is aimed at, what
failed and, if nothing did, what was tightened. How to read it:

* `first_failures` is what was observed: the declarations at which the build of the changed copy stopped.
* `failed` is not observed but inferred: the theorems `Cnn_...` that depend on one of these declarations. It is
  worked out anew, from the dependencies of the current theorems, whenever the log is written. So an old attempt
  can list theorems that were proved after it was run; these were not run against it.
* `detected` means that a declaration no longer compiled, often a lemma about the changed definition. A proof that
  breaks does not by itself show that the statement became false.
* The attempts `b20:...` built only the module expected to fail and what it imports, not the whole project.
* Three attempts whose edit did not compile are marked `invalid`. The batches `b16` to `b21` were stopped before
  their end; only what was run is recorded.
