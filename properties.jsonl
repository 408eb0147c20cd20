{"id": "C01", "title": "Token request acceptance is exact", "statement": "AccessToken::evaluate_access_token_request returns Ok exactly when the request uses the pre-authorized grant, an offer with a pre-authorized grant is supplied, the request's code equals the offer's code, a PIN is present exactly when the offer requires one, and a present PIN passes the length check and equals the expected PIN in the options. No other combination is accepted.", "quantifier": "every access token request, every optional credential offer and every optional options value", "why_tests_cant": "The inputs are unbounded strings, 64-bit PINs and all present/absent combinations; tests sample ten of them.", "anchors": ["crates/openid4vci/src/access_token/mod.rs:AccessToken::evaluate_access_token_request", "crates/openid4vci/src/access_token/mod.rs:GrantType::validate"]}
{"id": "C02", "title": "PIN-protected offers need the right PIN", "statement": "If the offer's pre-authorized grant says user_pin_required = true, evaluate_access_token_request returns Ok only for a request carrying a PIN that equals the expected PIN configured in the options; a missing PIN, a wrong PIN or missing options never yields Ok.", "quantifier": "every offer with user_pin_required = true, every request, every options value", "why_tests_cant": "A bypass may hide in any combination of offer grants, options and PIN values.", "anchors": ["crates/openid4vci/src/access_token/mod.rs:AccessToken::evaluate_access_token_request"]}
{"id": "C03", "title": "A wrong pre-authorized code is never accepted", "statement": "A token request whose pre_authorized_code differs from the code in the supplied offer is never accepted, whatever the PIN, the options and the other grants in the offer.", "quantifier": "every pair of distinct codes, every PIN, options value and offer", "why_tests_cant": "Quantifies over all pairs of strings and all contexts.", "anchors": ["crates/openid4vci/src/access_token/mod.rs:AccessToken::evaluate_access_token_request"]}
{"id": "C04", "title": "The authorization_code grant is never accepted", "statement": "A token request with the authorization_code grant is always rejected with AuthorizedFlowNotSupported, independent of the offer and the options; create_offer with an authorized code flow is never successful.", "quantifier": "every offer, options value, metadata value and credential list", "why_tests_cant": "Every surrounding input must be irrelevant; tests try one.", "anchors": ["crates/openid4vci/src/access_token/mod.rs:AccessToken::evaluate_access_token_request", "crates/openid4vci/src/credential_issuer/mod.rs:CredentialIssuer::create_offer"]}
{"id": "C05", "title": "PINs longer than 8 digits are rejected", "statement": "The documentation of GrantType::PreAuthorizedCodeFlow::user_pin and of evaluate_access_token_request promises that a user_pin with more than 8 digits is rejected with a validation error and one with at most 8 digits passes the length check.", "quantifier": "every 64-bit PIN value", "why_tests_cant": "The boundary is at one value out of 2^64; the unit test uses an 11 digit PIN.", "anchors": ["crates/openid4vci/src/access_token/mod.rs:GrantType::validate"]}
{"id": "C06", "title": "An authorized-code entry in the offer does not widen or narrow acceptance", "statement": "For an offer that lists both grants, evaluate_access_token_request accepts exactly the requests it accepts for the same offer listing only the pre-authorized grant; an offer with only the authorized grant, or with none, accepts nothing.", "quantifier": "every offer, request and options value", "why_tests_cant": "Relates two runs of the function on every input.", "anchors": ["crates/openid4vci/src/access_token/mod.rs:AccessToken::evaluate_access_token_request"]}
{"id": "C07", "title": "Token request errors are classified exactly", "statement": "For every rejected token request the returned error is determined by a fixed decision table: validation, unsupported flow, missing offer, no grant in the offer, wrong grant type, options required, PIN mismatch, invalid code or PIN presence (with the two flags telling which), and the combination error when the offer lists both grants.", "quantifier": "every request, offer and options value", "why_tests_cant": "The precedence among simultaneous faults needs every combination of faults.", "anchors": ["crates/openid4vci/src/access_token/mod.rs:AccessToken::evaluate_access_token_request", "crates/openid4vci/src/access_token/error.rs:AccessTokenError"]}
{"id": "C08", "title": "A wrong code reveals nothing about the PIN", "statement": "For a token request whose code does not match the offer, the result does not depend on whether the supplied PIN is the expected one, so that a caller without the code cannot probe the PIN.", "quantifier": "every pair of requests with a wrong code that differ only in the PIN value", "why_tests_cant": "A two-run (hyper) property over all PIN pairs; a single-run test cannot state it.", "anchors": ["crates/openid4vci/src/access_token/mod.rs:AccessToken::evaluate_access_token_request"]}
{"id": "C09", "title": "Issuer metadata validation means unique ids", "statement": "CredentialIssuerMetadata::validate succeeds exactly when no two entries of credentials_supported carry the same present id; entries without id never conflict.", "quantifier": "every list of supported credentials of any length", "why_tests_cant": "Lists of any length with any duplicates pattern.", "anchors": ["crates/openid4vci/src/types/credential_issuer_metadata.rs:CredentialIssuerMetadata::validate"]}
{"id": "C10", "title": "Credential ids resolve uniquely and independent of order", "statement": "Under valid metadata, resolving a credential id succeeds exactly when some supported credential has this id, yields the format of that one entry, and the result is the same for every reordering of credentials_supported. Resolving an inline credential returns it unchanged.", "quantifier": "every valid metadata value, every permutation of its entries and every id", "why_tests_cant": "All permutations of unbounded lists.", "anchors": ["crates/openid4vci/src/credential_issuer/mod.rs:CredentialOrId::resolve"]}
{"id": "C11", "title": "resolve_all preserves order and reports the first unknown id", "statement": "CredentialOrIds::resolve_all returns one format per entry, in the order of the entries, if every entry resolves; otherwise its error names the first entry, in list order, whose id is not in the metadata.", "quantifier": "every list of credentials or ids and every metadata value", "why_tests_cant": "Lists of any length and any failing position.", "anchors": ["crates/openid4vci/src/credential_issuer/mod.rs:CredentialOrIds::resolve_all"]}
{"id": "C12", "title": "create_offer succeeds exactly on valid input and returns what was asked", "statement": "create_offer returns Ok exactly when the metadata is valid, no authorized code flow is given and every id in the list resolves; the returned offer then carries the metadata's credential_issuer, the given credentials in order, the given pre-authorized flow and no authorized flow, and the error otherwise is the first failing check.", "quantifier": "every metadata value, credential list, endpoint and flows", "why_tests_cant": "Every combination of failures and unbounded lists.", "anchors": ["crates/openid4vci/src/credential_issuer/mod.rs:CredentialIssuer::create_offer", "crates/openid4vci/src/credential_issuer/mod.rs:CredentialOffer::new"]}
{"id": "C13", "title": "create_offer only offers credentials the issuer supports", "statement": "Per the comment in create_offer, every credential in a created offer is supported by the issuer: each id names an entry of credentials_supported and each inline credential equals the format of some entry.", "quantifier": "every metadata value and every credential list on which create_offer succeeds", "why_tests_cant": "Needs all inline credentials, not the supported ones tests pick.", "anchors": ["crates/openid4vci/src/credential_issuer/mod.rs:CredentialIssuer::create_offer", "crates/openid4vci/src/credential_issuer/mod.rs:CredentialOrId::resolve"]}
{"id": "C14", "title": "A wallet recovers the offer from the offer URL", "statement": "For every successful create_offer, percent-decoding the credential_offer value of the returned URL and parsing it as a CredentialOffer yields exactly the returned offer.", "quantifier": "every successful create_offer call: arbitrary Unicode strings, inline credentials and nested JSON-LD contexts", "why_tests_cant": "The composition of serialisation, UTF-8, percent-encoding and parsing must invert for all strings and nesting depths.", "anchors": ["crates/openid4vci/src/credential_issuer/mod.rs:CredentialOffer::url_encode", "crates/openid4vci/src/credential_issuer/mod.rs:CredentialIssuer::create_offer", "crates/openid4vci/src/credential_issuer/mod.rs:CredentialOffer", "crates/openid4vci/src/types/credential.rs:CredentialFormatProfile"]}
{"id": "C15", "title": "Offer data cannot break out of the URL parameter", "statement": "The percent-encoded payload in the offer URL consists only of unreserved characters and %XX triplets; whatever strings the offer contains, it contains no '&', '=', '#', '?', space, quote or non-ASCII character.", "quantifier": "every offer with arbitrary strings", "why_tests_cant": "Injection safety over every possible string.", "anchors": ["crates/openid4vci/src/credential_issuer/mod.rs:CredentialOffer::url_encode"]}
{"id": "C16", "title": "The offer URL carries credential_offer as a query parameter", "statement": "The URL returned by create_offer is the endpoint (or the deep link scheme openid-credential-offer://) followed by a query string whose credential_offer parameter is the payload, so that a standard URL parser finds it.", "quantifier": "every successful create_offer call, with and without endpoint", "why_tests_cant": "Both prefixes and arbitrary payloads have to be covered.", "anchors": ["crates/openid4vci/src/credential_issuer/mod.rs:CredentialIssuer::create_offer"]}
{"id": "C17", "title": "A well-formed compact proof JWT is parsed to exactly its content", "statement": "For every header, body and optional signature, parsing base64url(header JSON).base64url(body JSON)[.signature] with ProofJwt::from_str yields exactly that header, body and signature.", "quantifier": "every header, every body, every signature without a dot", "why_tests_cant": "Needs codec inversion for all strings, all claims and all optional-field combinations.", "anchors": ["crates/openid4vci/src/jwt/mod.rs:ProofJwt::from_str", "crates/openid4vci/src/base.rs:base64url::decode"]}
{"id": "C18", "title": "Proof JWTs with a wrong number of segments are rejected", "statement": "ProofJwt::from_str accepts only strings of two or three dot-separated segments (an unsigned or a signed compact JWT).", "quantifier": "every string", "why_tests_cant": "All strings.", "anchors": ["crates/openid4vci/src/jwt/mod.rs:ProofJwt::from_str"]}
{"id": "C19", "title": "The typ header and proof_type are compared case-insensitively and exactly", "statement": "ProofJwt::validate succeeds exactly when typ equals openid4vci-proof+jwt up to letter case, and CredentialRequest::validate accepts a proof only when proof_type equals JWT up to letter case and its jwt parses and validates; a request without proof always validates.", "quantifier": "every typ string, every proof_type string, every request", "why_tests_cant": "All casings and all strings.", "anchors": ["crates/openid4vci/src/jwt/mod.rs:ProofJwtHeader::validate", "crates/openid4vci/src/types/credential_request.rs:CredentialRequestProof::validate", "crates/openid4vci/src/types/credential_request.rs:CredentialRequest::validate"]}
{"id": "C20", "title": "The JWT validity window is enforced as documented", "statement": "ProofJwt::verify succeeds exactly when now is at or after nbf (if present) and strictly before exp (if present), as the field documentation requires; the error names the violated bound.", "quantifier": "every body, every instant", "why_tests_cant": "Boundary instants out of a continuum.", "anchors": ["crates/openid4vci/src/jwt/mod.rs:ProofJwt::verify", "crates/openid4vci/src/jwt/mod.rs:ProofJwtBody"]}
{"id": "C21", "title": "JWT validity is monotone in time", "statement": "A JWT rejected as expired stays rejected as expired at every later time unless it is not yet valid, a JWT accepted now is accepted at every instant between its bounds, and the accepted instants form one interval.", "quantifier": "every JWT and every pair or triple of instants", "why_tests_cant": "Relates runs at different times.", "anchors": ["crates/openid4vci/src/jwt/mod.rs:ProofJwt::verify"]}
{"id": "C22", "title": "An accepted credential request is bound to nonce, audience, type and freshness", "statement": "If evaluate_credential_request returns Ok then the request has a proof whose JWT parses, its typ is openid4vci-proof+jwt, its nonce equals the expected c_nonce of the options, that nonce was not expired at evaluation time, its aud equals the metadata's credential_issuer, the metadata ids are unique, a credential offer was supplied and no authorization server metadata was.", "quantifier": "every argument tuple and evaluation time", "why_tests_cant": "Soundness of an accept decision over all inputs.", "anchors": ["crates/openid4vci/src/credential_issuer/mod.rs:CredentialIssuer::evaluate_credential_request"]}
{"id": "C23", "title": "Without a configured nonce nothing is accepted", "statement": "evaluate_credential_request never returns Ok when no options, or options without c_nonce, are supplied.", "quantifier": "every argument tuple without nonce options", "why_tests_cant": "All inputs.", "anchors": ["crates/openid4vci/src/credential_issuer/mod.rs:CredentialIssuer::evaluate_credential_request", "crates/openid4vci/src/jwt/mod.rs:ProofJwt::check_nonce"]}
{"id": "C24", "title": "The client_id rule is applied as documented", "statement": "If evaluate_credential_request returns Ok and a client_id is configured, or the offer is not a purely pre-authorized offer, then the JWT's iss equals the configured client_id (both possibly absent); iss is left unchecked only when the offer lists only the pre-authorized flow and no client_id is configured.", "quantifier": "every offer, option and JWT", "why_tests_cant": "Four-way combination of flows and presence over all strings.", "anchors": ["crates/openid4vci/src/credential_issuer/mod.rs:CredentialIssuer::evaluate_credential_request", "crates/openid4vci/src/credential_issuer/mod.rs:EvaluateCredentialRequestOptions", "crates/openid4vci/src/jwt/mod.rs:ProofJwt::check_iss"]}
{"id": "C25", "title": "Only DID-bound proofs are accepted, with the key from the DID document", "statement": "If evaluate_credential_request returns Ok, the proof header identifies its key by kid, a DID document was supplied, subject_id is the DID part of the kid, and the returned public key is the key of the verification method which the kid selects in that document; proofs with jwk, x5c or no key are never accepted.", "quantifier": "every proof header, DID document and DID resolver behaviour", "why_tests_cant": "All headers and documents.", "anchors": ["crates/openid4vci/src/credential_issuer/mod.rs:CredentialIssuer::evaluate_credential_request", "crates/openid4vci/src/jwt/mod.rs:ProofJwtHeader::extract_key_and_alg", "crates/openid4vci/src/jwt/mod.rs:ProofJwt::extract_did"]}
{"id": "C26", "title": "pre_evaluate announces the DID that evaluate uses", "statement": "If pre_evaluate_credential_request and evaluate_credential_request both succeed on a request, the DID to resolve returned by the former equals subject_id returned by the latter; if evaluate succeeds and the request validates, pre_evaluate succeeds.", "quantifier": "every request and all other arguments", "why_tests_cant": "Relates two API calls on all inputs.", "anchors": ["crates/openid4vci/src/credential_issuer/mod.rs:CredentialIssuer::pre_evaluate_credential_request", "crates/openid4vci/src/credential_issuer/mod.rs:CredentialIssuer::evaluate_credential_request"]}
{"id": "C27", "title": "alg none and symmetric algorithms are rejected", "statement": "As documented on ProofJwtHeader::alg (MUST NOT be none or a symmetric algorithm), evaluate_credential_request never returns Ok for a proof with alg none, HS256, HS384 or HS512.", "quantifier": "every request", "why_tests_cant": "Absence of an accepting path over all inputs.", "anchors": ["crates/openid4vci/src/jwt/mod.rs:ProofJwtHeader", "crates/openid4vci/src/jwt/mod.rs:ProofJwtAlgorithm", "crates/openid4vci/src/credential_issuer/mod.rs:CredentialIssuer::evaluate_credential_request"]}
{"id": "C28", "title": "Expired or not-yet-valid proofs are rejected", "statement": "evaluate_credential_request, documented to fail when a JWT is inside the proof and is not valid, never returns Ok for a proof whose exp lies before or whose nbf lies after the evaluation time.", "quantifier": "every request and evaluation time", "why_tests_cant": "All inputs and times.", "anchors": ["crates/openid4vci/src/credential_issuer/mod.rs:CredentialIssuer::evaluate_credential_request", "crates/openid4vci/src/jwt/mod.rs:ProofJwt::verify"]}
{"id": "C29", "title": "A proof without a signature is rejected", "statement": "extract_signature, and hence evaluate_credential_request, fail for a proof JWT that has no signature segment.", "quantifier": "every unsigned proof JWT", "why_tests_cant": "Depends on the characters of every claim.", "anchors": ["crates/openid4vci/src/jwt/mod.rs:ProofJwt::extract_signature", "crates/openid4vci/src/credential_issuer/mod.rs:CredentialIssuer::evaluate_credential_request"]}
{"id": "C30", "title": "The returned signature is the signature of the JWT", "statement": "When extract_signature succeeds (also within evaluate_credential_request), the returned bytes are those of the JWT's signature segment.", "quantifier": "every proof JWT", "why_tests_cant": "Depends on the characters of every claim.", "anchors": ["crates/openid4vci/src/jwt/mod.rs:ProofJwt::extract_signature"]}
{"id": "C31", "title": "The returned message is what the holder signed", "statement": "When evaluate_credential_request returns Ok, proof_of_possession.message is the JWS signing input of the submitted JWT, i.e. the bytes of its first two segments joined by a dot.", "quantifier": "every accepted request", "why_tests_cant": "All accepted requests; the unit test pins the wrong bytes.", "anchors": ["crates/openid4vci/src/jwt/mod.rs:ProofJwt::to_signable_message", "crates/openid4vci/src/jwt/mod.rs:TryInto<String> for &ProofJwt"]}
{"id": "C32", "title": "The signable message commits to header and body", "statement": "Two proof JWTs with the same signable message have the same header and the same body, so no claim can change without changing the bytes that are verified.", "quantifier": "every pair of proof JWTs", "why_tests_cant": "Injectivity over all pairs.", "anchors": ["crates/openid4vci/src/jwt/mod.rs:ProofJwt::to_signable_message"]}
{"id": "C33", "title": "proof_type is enforced on every path", "statement": "pre_evaluate_credential_request, evaluate_credential_request and create_credential_success_response all reject a request whose proof_type is not JWT in some casing.", "quantifier": "every request with another proof_type and all other arguments", "why_tests_cant": "All strings on three entry points.", "anchors": ["crates/openid4vci/src/types/credential_request.rs:CredentialRequestProof::validate", "crates/openid4vci/src/credential_issuer/mod.rs:CredentialIssuer::evaluate_credential_request"]}
{"id": "C34", "title": "Only offered and supported credentials are granted", "statement": "If evaluate_credential_request returns Ok, the returned credential is the requested one, is among the credentials of the offer and is supported by the issuer's metadata (otherwise InvalidRequestedCredential).", "quantifier": "every request, offer and metadata value", "why_tests_cant": "All inputs.", "anchors": ["crates/openid4vci/src/credential_issuer/mod.rs:CredentialIssuer::evaluate_credential_request", "crates/openid4vci/src/credential_issuer/error.rs:InvalidRequestedCredential"]}
{"id": "C35", "title": "The success response names the format of the credential it carries", "statement": "In a response of create_credential_success_response that carries a credential, the format field is the format name of that credential.", "quantifier": "every request and credential", "why_tests_cant": "All pairs of formats.", "anchors": ["crates/openid4vci/src/credential_issuer/mod.rs:CredentialIssuer::create_credential_success_response", "crates/openid4vci/src/types/credential.rs:get_format_name"]}
{"id": "C36", "title": "The success response carries exactly one of credential and acceptance_token", "statement": "Every successful create_credential_success_response carries exactly one of credential and acceptance_token, as its documentation requires.", "quantifier": "every argument tuple", "why_tests_cant": "All inputs including the absent one.", "anchors": ["crates/openid4vci/src/credential_issuer/mod.rs:CredentialIssuer::create_credential_success_response", "crates/openid4vci/src/credential_issuer/mod.rs:CredentialSuccessResponse"]}
{"id": "C37", "title": "Issued credentials are encoded losslessly per format", "statement": "In a success response a jwt_vc_json, jwt_vc_json-ld or mso_mdoc credential is a base64url string that decodes to JSON parsing back to exactly that credential; an ldp_vc credential is carried unencoded and unchanged.", "quantifier": "every credential of every format with arbitrary strings and maps", "why_tests_cant": "Codec inversion over all values.", "anchors": ["crates/openid4vci/src/types/credential.rs:TryFrom<CredentialFormatProfile> for CredentialFormatProfileOrEncoded"]}
{"id": "C38", "title": "c_nonce lifetimes never appear without a c_nonce", "statement": "Neither create_credential_success_response nor create_access_token_success_response ever returns a response with c_nonce_expires_in but without c_nonce; AccessTokenSuccessResponse::validate rejects exactly such responses.", "quantifier": "every argument tuple", "why_tests_cant": "All inputs.", "anchors": ["crates/openid4vci/src/access_token/mod.rs:AccessTokenSuccessResponse::validate", "crates/openid4vci/src/access_token/mod.rs:AccessToken::create_access_token_success_response", "crates/openid4vci/src/credential_issuer/mod.rs:CredentialIssuer::create_credential_success_response"]}
{"id": "C39", "title": "Protocol error codes convert exactly", "statement": "For AccessTokenErrorCode, CredentialIssuerErrorCode and AccessTokenType, converting to a string and back is the identity, converting from a string succeeds exactly on the documented strings, and distinct codes have distinct strings.", "quantifier": "every code and every string", "why_tests_cant": "The rejecting half quantifies over all strings.", "anchors": ["crates/openid4vci/src/access_token/error_response.rs:AccessTokenErrorCode", "crates/openid4vci/src/credential_issuer/error_code.rs:CredentialIssuerErrorCode", "crates/openid4vci/src/types/token_type.rs:AccessTokenType"]}
{"id": "C40", "title": "Serialised error responses carry the documented code strings", "statement": "Serialising the result of create_access_token_error_response or create_credential_error_response yields a JSON object whose error member is the specification's code string (e.g. invalid_request).", "quantifier": "every code and every other argument", "why_tests_cant": "All codes and detail values.", "anchors": ["crates/openid4vci/src/error_response.rs:ErrorResponse", "crates/openid4vci/src/access_token/error_response.rs:AccessTokenErrorCode", "crates/openid4vci/src/credential_issuer/error_code.rs:CredentialIssuerErrorCode"]}
{"id": "C41", "title": "Error information identifies the error kind", "statement": "ErrorInformation::code determines the kind of error: two errors of any of the four error enums have the same code exactly if they are the same variant of the same enum, and the name field is that variant's name.", "quantifier": "every pair of errors of the four enums with arbitrary payloads", "why_tests_cant": "All pairs across four enums, arbitrary nesting.", "anchors": ["crates/openid4vci/src/macros.rs:error_impl", "crates/openid4vci/src/validate.rs:ValidationError", "crates/openid4vci/src/jwt/error.rs:JwtError", "crates/openid4vci/src/access_token/error.rs:AccessTokenError", "crates/openid4vci/src/credential_issuer/error.rs:CredentialIssuerError", "crates/openid4vci/src/error.rs:ErrorInformation"]}
{"id": "C42", "title": "Return objects carry exactly one of info and error, and all warnings in order", "statement": "to_return_object yields exactly one of info (on Ok, with the value) and error (on Err, with its information) and no warnings; any sequence of add_warning calls appends the warnings in order and changes neither info nor error.", "quantifier": "every result and every sequence of warnings", "why_tests_cant": "Sequences of any length.", "anchors": ["crates/openid4vci/src/macros.rs:error_impl", "crates/openid4vci/src/return_object.rs:ReturnObject::add_warning"]}
{"id": "C43", "title": "A ProofJwt converted to a string parses back", "statement": "For every ProofJwt, from_str applied to its string conversion (TryInto<String>) yields the same ProofJwt.", "quantifier": "every ProofJwt", "why_tests_cant": "All values.", "anchors": ["crates/openid4vci/src/jwt/mod.rs:TryInto<String> for &ProofJwt", "crates/openid4vci/src/jwt/mod.rs:ProofJwt::from_str"]}
{"id": "C44", "title": "base64url encoding is a bijection onto its image", "statement": "Decoding an encoded byte string returns it, encoding a successfully decoded string returns that string (no two strings decode to the same bytes), and encoded strings contain only A-Z a-z 0-9 - and _ .", "quantifier": "every byte string and every string", "why_tests_cant": "All byte strings of every length, incl. partial final groups.", "anchors": ["crates/openid4vci/src/base.rs:base64url", "crates/openid4vci/src/base.rs:base64"]}
{"id": "C45", "title": "JSON text produced by the library parses back to the same value", "statement": "Serialising any JSON value whose numbers are integers of the 64-bit range or double-precision numbers that survive (see C100), nested below the recursion limit, and parsing the text, returns the value; no prefix ambiguity arises when text is concatenated.", "quantifier": "every JSON value: arbitrary Unicode strings, control characters, nested arrays and objects", "why_tests_cant": "Unbounded trees and strings.", "anchors": ["crates/openid4vci/src/credential_issuer/mod.rs:CredentialOffer::url_encode", "crates/openid4vci/src/jwt/mod.rs:ProofJwt::from_str"]}
{"id": "C46", "title": "No input makes request evaluation panic", "statement": "evaluate_credential_request, evaluate_access_token_request, pre_evaluate_credential_request, create_offer and create_credential_success_response never panic.", "quantifier": "every argument tuple and evaluation time", "why_tests_cant": "Absence of a panic over all inputs.", "anchors": ["crates/openid4vci/src/credential_issuer/mod.rs:CredentialIssuer::evaluate_credential_request", "crates/openid4vci/src/jwt/mod.rs:ProofJwtHeader::extract_key_and_alg"]}
{"id": "C47", "title": "Additional error details cannot make the response unusable or override the code", "statement": "Every error response with any error_additional_details serialises successfully and has exactly one error member.", "quantifier": "every details value", "why_tests_cant": "All JSON values.", "anchors": ["crates/openid4vci/src/error_response.rs:ErrorResponse"]}
{"id": "C48", "title": "Issuer metadata survives serialisation", "statement": "Serialising a CredentialIssuerMetadata and parsing it back yields the same metadata, and parsing standard metadata keeps cryptographic_binding_methods_supported.", "quantifier": "every metadata value with arbitrary additional fields", "why_tests_cant": "Unbounded maps and name collisions.", "anchors": ["crates/openid4vci/src/types/credential_issuer_metadata.rs:CredentialIssuerMetadata", "crates/openid4vci/src/types/credential_issuer_metadata.rs:CredentialSupported"]}
{"id": "C49", "title": "Standard token request parameters deserialise", "statement": "The parameters of a pre-authorized token request as the specification names them (grant_type string, pre-authorized_code, user_pin) deserialise to an AccessTokenRequest; a serialised AccessTokenRequest deserialises to itself.", "quantifier": "every code and PIN", "why_tests_cant": "All parameter values.", "anchors": ["crates/openid4vci/src/access_token/mod.rs:AccessTokenRequest", "crates/openid4vci/src/access_token/mod.rs:GrantType"]}
{"id": "C50", "title": "An honest wallet completes the flow", "statement": "For every valid metadata and resolvable credential list: the created offer's code (and PIN, if required) obtains a token, and a proof JWT built by the wallet with the right nonce, audience and issuer, whose kid the DID document resolves to an Ed25519 key, is accepted within the nonce lifetime with the holder's DID as subject.", "quantifier": "every metadata, credentials, code, PIN up to 8 digits, claims and DID document", "why_tests_cant": "End-to-end completeness over all honest inputs.", "anchors": ["crates/openid4vci/src/credential_issuer/mod.rs:CredentialIssuer", "crates/openid4vci/src/access_token/mod.rs:AccessToken"]}
{"id": "C51", "title": "Nonce expiry is permanent and inclusive", "statement": "A request is rejected with CNonceIsExpired exactly when now lies after created_at + expires_in seconds (and earlier checks pass); once rejected for expiry it is rejected at every later time; and acceptance does not depend on the time within the lifetime.", "quantifier": "every request, option and pair of instants", "why_tests_cant": "Relates runs at different times; boundary instants.", "anchors": ["crates/openid4vci/src/credential_issuer/mod.rs:CredentialIssuer::evaluate_credential_request"]}
{"id": "C52", "title": "A pre-authorized code is single use", "statement": "Per the documentation of PreAuthorizedCodeFlow::code, in any sequence of token request evaluations against one offer the same code is accepted at most once.", "quantifier": "every history of token request evaluations", "why_tests_cant": "Histories of any length.", "anchors": ["crates/openid4vci/src/access_token/mod.rs:AccessToken::evaluate_access_token_request", "crates/openid4vci/src/credential_issuer/mod.rs:PreAuthorizedCodeFlow"]}
{"id": "C53", "title": "Ambiguous key headers are rejected", "statement": "A proof header with more than one of kid, jwk and x5c (each documented as MUST NOT be present with another) is not accepted by ProofJwt::from_str.", "quantifier": "every header JSON with at least two key members", "why_tests_cant": "All documents and member orders.", "anchors": ["crates/openid4vci/src/jwt/mod.rs:ProofJwtAdditionalHeader", "crates/openid4vci/src/jwt/mod.rs:ProofJwtHeader", "crates/openid4vci/src/jwt/mod.rs:ProofJwt::from_str"]}
{"id": "C54", "title": "Duplicate claims are rejected", "statement": "A JWT body in which any of iss, aud, sub, iat, nonce, nbf, exp occurs twice, or a header in which typ or alg occurs twice, is rejected by ProofJwt::from_str, so no two readers can disagree on a claim.", "quantifier": "every header and body document with a duplicate member", "why_tests_cant": "All documents, positions and values.", "anchors": ["crates/openid4vci/src/jwt/mod.rs:ProofJwtBody", "crates/openid4vci/src/jwt/mod.rs:ProofJwtHeader", "crates/openid4vci/src/jwt/mod.rs:ProofJwt::from_str"]}
{"id": "C55", "title": "Percent-encoding is lossless", "statement": "urlencoding of any string decodes back to it, and distinct strings have distinct encodings.", "quantifier": "every Unicode string", "why_tests_cant": "All strings.", "anchors": ["crates/openid4vci/src/credential_issuer/mod.rs:CredentialOffer::url_encode"]}
{"id": "C56", "title": "Date-time claims survive as text", "statement": "Every instant chrono can represent, written as the text of an iat, nbf or exp claim, is read back as the same instant; distinct instants have distinct texts; and the written dates are those of the Gregorian calendar, consecutive days getting consecutive dates.", "quantifier": "every instant from the first to the last representable nanosecond", "why_tests_cant": "About 1.6e22 instants with leap years, negative and five-digit years and fractions of 0, 3, 6 or 9 digits.", "anchors": ["crates/openid4vci/src/jwt/mod.rs:ProofJwtBody", "crates/openid4vci/src/jwt/mod.rs:ProofJwt::from_str"]}
{"id": "C57", "title": "Time claims are NumericDates", "statement": "iat, nbf and exp of a proof JWT are numbers of seconds since the epoch, as RFC 7519 and the OpenID4VCI specification cited by the types require: a JWT with a numeric iat is accepted and its iat is that instant.", "quantifier": "every JWT with a numeric time claim", "why_tests_cant": "All numbers, claims and documents; the tests use the library's own text form only.", "anchors": ["crates/openid4vci/src/jwt/mod.rs:ProofJwtBody", "crates/openid4vci/src/jwt/mod.rs:ProofJwt::from_str"]}
{"id": "C58", "title": "Header and body of an accepted JWT are JSON objects", "statement": "In every proof JWT accepted by from_str the header and the body are JSON objects (RFC 7515, RFC 7519) and alg is a string.", "quantifier": "every accepted JWT, every header and body document", "why_tests_cant": "The accepting shapes are those of generated deserialisers, over all documents.", "anchors": ["crates/openid4vci/src/jwt/mod.rs:ProofJwt::from_str", "crates/openid4vci/src/jwt/mod.rs:ProofJwtHeader", "crates/openid4vci/src/jwt/mod.rs:ProofJwtBody", "crates/openid4vci/src/jwt/mod.rs:ProofJwtAlgorithm"]}
{"id": "C59", "title": "Claims are read by name, exactly", "statement": "A JSON object is read as a JWT body exactly when aud, iat and nonce occur once with values of the right type and iss, sub, nbf and exp occur at most once with the right type or null; the body then carries exactly these values; the order of the members and members of other names do not matter.", "quantifier": "every JSON object and every body", "why_tests_cant": "All documents, permutations and extra members.", "anchors": ["crates/openid4vci/src/jwt/mod.rs:ProofJwtBody"]}
{"id": "C60", "title": "Credential request errors are classified exactly", "statement": "For every rejected credential request the error of evaluate_credential_request, and of pre_evaluate_credential_request, is determined by a fixed decision table over the faults: duplicate ids, missing offer, authorization server metadata, expired nonce, missing proof, malformed JWT, wrong typ, wrong nonce, wrong client, wrong audience, no usable key (nine cases), missing signature, inline key; each with the precedence of the checks and the reported values. No other variant is ever returned.", "quantifier": "every argument tuple and evaluation time", "why_tests_cant": "The precedence among simultaneous faults needs every combination of faults.", "anchors": ["crates/openid4vci/src/credential_issuer/mod.rs:CredentialIssuer::evaluate_credential_request", "crates/openid4vci/src/credential_issuer/mod.rs:CredentialIssuer::pre_evaluate_credential_request", "crates/openid4vci/src/credential_issuer/error.rs:CredentialIssuerError", "crates/openid4vci/src/jwt/error.rs:JwtError"]}
{"id": "C61", "title": "The reported error determines the error", "statement": "The error code, description and additional information that ErrorInformation yields for a returned error determine the error completely: two distinct errors that evaluate_access_token_request, or the credential issuer's operations, can return never have the same report (for date-time values whose texts are distinct, which chrono's are).", "quantifier": "every pair of errors that can be returned", "why_tests_cant": "Pairs of errors with arbitrary string and time payloads; the unit tests look at one error at a time.", "anchors": ["crates/openid4vci/src/credential_issuer/error.rs:CredentialIssuerError", "crates/openid4vci/src/access_token/error.rs:AccessTokenError", "crates/openid4vci/src/jwt/error.rs:JwtError", "crates/openid4vci/src/macros.rs:serialize_to_optional_json", "crates/openid4vci/src/validate.rs:ValidationError"]}
{"id": "C62", "title": "Error reports name the compared values", "statement": "The serialised details of an error name the values that disagreed: the expiry and the current time for an expired nonce, the expected and the actual nonce, client id and audience, the unknown credential id, and for a rejected token request whether a PIN has to be supplied and whether the code is right; the values come from the evaluated arguments, none is altered or swapped.", "quantifier": "every argument tuple and every rejected request", "why_tests_cant": "Values are arbitrary; swapping expected and actual passes a test that compares only variants.", "anchors": ["crates/openid4vci/src/credential_issuer/error.rs:CredentialIssuerError", "crates/openid4vci/src/credential_issuer/mod.rs:CredentialIssuer::evaluate_credential_request", "crates/openid4vci/src/access_token/mod.rs:AccessToken::evaluate_access_token_request", "crates/openid4vci/src/jwt/error.rs:JwtError"]}
{"id": "C63", "title": "Documents are read by the documented member names, exactly", "statement": "Credential offers with their grants and entries, token requests and responses, credential requests with their proof, credential responses, issuer metadata with supported credentials, display and logo, credential format profiles, subjects and JWT headers are deserialised exactly from the JSON values that have, under the documented names, the documented members with the documented types: required members once, optional ones missing or null, maps with the last value per key, algorithms by their registered names, proof_type JWT by default. Any other JSON value is an error; member order and unknown members do not matter.", "quantifier": "every JSON value", "why_tests_cant": "Soundness and completeness of 19 deserialisers over all JSON values, including duplicates, wrong types and positional forms.", "anchors": ["crates/openid4vci/src/types/credential.rs:CredentialFormatProfile", "crates/openid4vci/src/credential_issuer/mod.rs:CredentialOffer", "crates/openid4vci/src/access_token/mod.rs:AccessTokenRequest", "crates/openid4vci/src/access_token/mod.rs:AccessTokenSuccessResponse", "crates/openid4vci/src/types/credential_request.rs:CredentialRequest", "crates/openid4vci/src/credential_issuer/mod.rs:CredentialSuccessResponse", "crates/openid4vci/src/types/credential_issuer_metadata.rs:CredentialIssuerMetadata", "crates/openid4vci/src/jwt/mod.rs:ProofJwtHeader", "crates/openid4vci/src/jwt/mod.rs:ProofJwtAlgorithm"]}
{"id": "C64", "title": "Requests and responses survive their JSON text", "statement": "What is serialised for an offer, a token request or response, a credential request or response, a supported credential or a JWT header is a document with the documented members, and the text of every token request and response, is read back as the same value, that of a credential request or response exactly if it stays within the parser's recursion limit and the double-precision numbers in JSON-LD contexts survive (see C100); distinct values have distinct texts.", "quantifier": "every value of these types", "why_tests_cant": "All strings, numbers and nested contexts; escape sequences and optional members in every combination.", "anchors": ["crates/openid4vci/src/types/credential_request.rs:CredentialRequest", "crates/openid4vci/src/credential_issuer/mod.rs:CredentialSuccessResponse", "crates/openid4vci/src/access_token/mod.rs:AccessTokenRequest", "crates/openid4vci/src/access_token/mod.rs:AccessTokenSuccessResponse", "crates/openid4vci/src/types/credential.rs:CredentialFormatProfile"]}
{"id": "C65", "title": "JSON text is read by the grammar of RFC 8259, exactly", "statement": "The JSON reading used for JWT segments and documents accepts exactly the texts of the RFC 8259 grammar with at most 127 nested arrays and objects, and gives each the value the grammar assigns (strings with all escapes and surrogate pairs, integers of the 64-bit range by value, objects with their members in order); every printed document is such a text, and a text has at most one value.", "quantifier": "every string, every byte string and every JSON value", "why_tests_cant": "All strings, including the rejected ones, and trees of any size.", "anchors": ["crates/openid4vci/src/jwt/mod.rs:ProofJwt::from_str", "crates/openid4vci/src/credential_issuer/mod.rs:CredentialOffer::url_encode"]}
{"id": "C66", "title": "String bytes are UTF-8 by RFC 3629, exactly", "statement": "Strings are turned into bytes (signable message, signature, base64url segments) by the table of RFC 3629, and bytes are read as a string exactly if they are the UTF-8 form of it: overlong forms, surrogates, numbers above U+10FFFF and truncated sequences are rejected.", "quantifier": "every string and every byte string", "why_tests_cant": "All byte strings.", "anchors": ["crates/openid4vci/src/jwt/mod.rs:ProofJwt::to_signable_message", "crates/openid4vci/src/jwt/mod.rs:ProofJwt::extract_signature", "crates/openid4vci/src/jwt/mod.rs:ProofJwt::from_str"]}
{"id": "C67", "title": "A string is read as a proof JWT exactly if it is the text of that JWT", "statement": "ProofJwt::from_str returns a JWT exactly for the strings that are dot-separated segments of which the first is base64url of the UTF-8 form of a JSON text describing the header, the second the same for the body, and the third, if any, is the signature; each string denotes at most one JWT, and exchanging what follows the body changes nothing but the signature.", "quantifier": "every string and every ProofJwt", "why_tests_cant": "An equivalence over all strings through four encodings.", "anchors": ["crates/openid4vci/src/jwt/mod.rs:ProofJwt::from_str", "crates/openid4vci/src/jwt/mod.rs:ProofJwtHeader", "crates/openid4vci/src/jwt/mod.rs:ProofJwtBody"]}
{"id": "C68", "title": "The texts of requests and responses are read exactly", "statement": "A text is read as a credential offer, token request, token response, credential request, credential response or issuer metadata exactly if it is a JSON text (RFC 8259, at most 127 levels in what the type asks for; values nobody asks for only have to match the grammar, see C123) whose value has the documented members; white space and the choice of escapes do not matter.", "quantifier": "every string and every value of the six types", "why_tests_cant": "An equivalence over all strings.", "anchors": ["crates/openid4vci/src/credential_issuer/mod.rs:CredentialOffer", "crates/openid4vci/src/access_token/mod.rs:AccessTokenRequest", "crates/openid4vci/src/access_token/mod.rs:AccessTokenSuccessResponse", "crates/openid4vci/src/types/credential_request.rs:CredentialRequest", "crates/openid4vci/src/credential_issuer/mod.rs:CredentialSuccessResponse", "crates/openid4vci/src/types/credential_issuer_metadata.rs:CredentialIssuerMetadata"]}
{"id": "C69", "title": "The application's settings and nonces are read exactly", "statement": "CNonceOptions, EvaluateCredentialRequestOptions, EvaluateAccessTokenRequestOptions, CNonce, AuthorizationServerMetadata and ProofJwt (as plain JSON) are read exactly from the documents with the documented members, and every value survives its JSON text; in particular an incomplete nonce setting is an error and not the absence of a nonce.", "quantifier": "every JSON value and every value of the six types", "why_tests_cant": "Equivalences over all documents.", "anchors": ["crates/openid4vci/src/credential_issuer/mod.rs:CNonceOptions", "crates/openid4vci/src/credential_issuer/mod.rs:EvaluateCredentialRequestOptions", "crates/openid4vci/src/access_token/mod.rs:EvaluateAccessTokenRequestOptions", "crates/openid4vci/src/credential_issuer/mod.rs:CNonce", "crates/openid4vci/src/jwt/mod.rs:ProofJwt"]}
{"id": "C70", "title": "Missing settings never widen what is accepted, except by the client id they omit", "statement": "Token requests accepted without settings are accepted with any settings and carry no PIN; settings without a PIN equal no settings; for a purely pre-authorized offer a configured client id narrows the accepted credential requests to exactly those whose iss is that client, and otherwise settings without client id accept only proofs without iss.", "quantifier": "every request, offer, document, instant and settings", "why_tests_cant": "Relates the outcomes of two calls over all inputs.", "anchors": ["crates/openid4vci/src/access_token/mod.rs:AccessToken::evaluate_access_token_request", "crates/openid4vci/src/credential_issuer/mod.rs:CredentialIssuer::evaluate_credential_request", "crates/openid4vci/src/jwt/mod.rs:ProofJwt::validate"]}
{"id": "C71", "title": "The text of a result determines the outcome", "statement": "The JSON text of the return object of a call determines whether it succeeded, the value, and the error with its compared values: two calls with the same text had the same outcome. This holds for token request evaluation, for credential request evaluation with chrono's instants, and for every error report on its own.", "quantifier": "every pair of calls with any inputs", "why_tests_cant": "Injectivity over all pairs of outcomes.", "anchors": ["crates/openid4vci/src/return_object.rs:ReturnObject", "crates/openid4vci/src/error.rs:ErrorInformation", "crates/openid4vci/src/credential_issuer/mod.rs:CredentialIssuerEvaluateRequestResponse"]}
{"id": "C72", "title": "Conversions into credential lists keep number, order and kind", "statement": "Vectors of strings become lists of ids and vectors of profiles lists of inline credentials, one entry each in order; an offer made from ids exists exactly if metadata and flows are in order and all ids are known and lists exactly them; an offer made from profiles never depends on the metadata's credentials.", "quantifier": "every list and every metadata value", "why_tests_cant": "Lists of any length.", "anchors": ["crates/openid4vci/src/credential_issuer/mod.rs:CredentialOrIds", "crates/openid4vci/src/credential_issuer/mod.rs:CredentialOrId", "crates/openid4vci/src/credential_issuer/mod.rs:CredentialIssuer::create_offer"]}
{"id": "C73", "title": "Evaluation depends on nothing but what it checks", "statement": "The outcome of evaluating a credential request is the same for any metadata with the same issuer and equally valid, any offer with the same flows, any proof type, any authorization server metadata, any instant within the nonce's lifetime and any document with the same keys, and the requested credential is passed through; the outcome for a token request is the same for any offer with the same pre-authorized grant and any settings with the same PIN.", "quantifier": "every pair of inputs that agree on the checked parts", "why_tests_cant": "Non-interference: a statement about pairs of runs.", "anchors": ["crates/openid4vci/src/credential_issuer/mod.rs:CredentialIssuer::evaluate_credential_request", "crates/openid4vci/src/credential_issuer/mod.rs:CredentialIssuer::pre_evaluate_credential_request", "crates/openid4vci/src/access_token/mod.rs:AccessToken::evaluate_access_token_request"]}
{"id": "C74", "title": "Date-time texts are read as the instants they denote", "statement": "Every date-time of RFC 3339 (with upper-case T) is read as the instant it denotes, for every fraction and offset, and so are the claims iat, nbf and exp; the texts read as an instant are exactly those of the library's wider format.", "quantifier": "every string and every instant", "why_tests_cant": "All strings, dates, fractions and offsets.", "anchors": ["crates/openid4vci/src/jwt/mod.rs:ProofJwtBody", "crates/openid4vci/src/credential_issuer/mod.rs:CNonceOptions"]}
{"id": "C75", "title": "The token type is case insensitive", "statement": "As the documentation of AccessTokenSuccessResponse::token_type says, the token type is read in every spelling: any string that equals Bearer up to letter case is the Bearer type.", "quantifier": "every string", "why_tests_cant": "All spellings, over all response documents.", "anchors": ["crates/openid4vci/src/access_token/mod.rs:AccessTokenSuccessResponse", "crates/openid4vci/src/access_token/mod.rs:AccessTokenType"]}
{"id": "C76", "title": "A PIN is a string of up to eight digits", "statement": "As the documentation of GrantType::PreAuthorizedCodeFlow::user_pin says, the PIN of a token request is a string of at most eight digits; every such string is read, and different PINs are read as different values.", "quantifier": "every string of one to eight digits and every grant document", "why_tests_cant": "A hundred million PINs with leading zeros.", "anchors": ["crates/openid4vci/src/access_token/mod.rs:GrantType"]}
{"id": "C77", "title": "create_offer fails in every documented case", "statement": "create_offer fails when the authorized flow is supplied, when a credential id is unknown, and when a credential has another format than ldp_vc, as its documentation lists.", "quantifier": "every metadata, credential list and flow", "why_tests_cant": "All inputs.", "anchors": ["crates/openid4vci/src/credential_issuer/mod.rs:CredentialIssuer::create_offer"]}
{"id": "C78", "title": "No response is created with an expired nonce", "statement": "create_credential_success_response, documented to fail when the c_nonce is expired, fails for a nonce whose lifetime is zero.", "quantifier": "every request, credential and nonce", "why_tests_cant": "All inputs.", "anchors": ["crates/openid4vci/src/credential_issuer/mod.rs:CredentialIssuer::create_credential_success_response", "crates/openid4vci/src/credential_issuer/mod.rs:CNonce"]}
{"id": "C79", "title": "Offers without grants are read", "statement": "A credential offer without grants, or with empty grants, both of which its documentation describes, is read as an offer naming no flow.", "quantifier": "every offer document", "why_tests_cant": "All documents.", "anchors": ["crates/openid4vci/src/credential_issuer/mod.rs:CredentialOffer", "crates/openid4vci/src/credential_issuer/mod.rs:CredentialOfferGrants"]}
{"id": "C80", "title": "Endpoints in valid metadata use https", "statement": "CredentialIssuerMetadata::validate succeeds only if the credential endpoint and the batch credential endpoint use the https scheme, as the documentation of the fields requires.", "quantifier": "every metadata value", "why_tests_cant": "All URLs.", "anchors": ["crates/openid4vci/src/types/credential_issuer_metadata.rs:CredentialIssuerMetadata"]}
{"id": "C81", "title": "One display object per language", "statement": "CredentialIssuerMetadata::validate succeeds only if the display objects of each supported credential have distinct language identifiers, as the documentation of locale requires.", "quantifier": "every metadata value", "why_tests_cant": "Lists of any length.", "anchors": ["crates/openid4vci/src/types/credential_issuer_metadata.rs:DisplayProperties", "crates/openid4vci/src/types/credential_issuer_metadata.rs:CredentialSupported", "crates/openid4vci/src/types/credential_issuer_metadata.rs:CredentialIssuerMetadata"]}
{"id": "C82", "title": "Claims below a namespace are kept", "statement": "The documentation of the mso_mdoc claims describes objects with a claim per key under each namespace, and that of CredentialSubject deeply nested dictionaries: documents that name different claims are read as different credentials.", "quantifier": "every mso_mdoc document", "why_tests_cant": "All documents and claim names.", "anchors": ["crates/openid4vci/src/types/credential.rs:CredentialFormatProfile", "crates/openid4vci/src/types/credential.rs:CredentialSubject"]}
{"id": "C83", "title": "The returned algorithm is one for the returned key", "statement": "When evaluate_credential_request returns Ok, the algorithm in proof_of_possession is one that is used with the type of the key the header refers to, so a caller who verifies with both cannot be misled into another algorithm.", "quantifier": "every accepted request and every DID document", "why_tests_cant": "All pairs of algorithms and keys over all requests.", "anchors": ["crates/openid4vci/src/credential_issuer/mod.rs:CredentialIssuer::evaluate_credential_request", "crates/openid4vci/src/jwt/mod.rs:ProofJwtHeader::extract_key_and_alg"]}
{"id": "C84", "title": "Only EdDSA keys are used", "statement": "jwk_to_public_key_bytes, documented to support only EdDSA, fails for every key that is not declared for EdDSA.", "quantifier": "every JWK", "why_tests_cant": "All keys.", "anchors": ["crates/openid4vci/src/jwt/mod.rs:ProofJwtHeader::jwk_to_public_key_bytes"]}
{"id": "C85", "title": "Inline keys in their standard form are read", "statement": "A header with a jwk member that is a JSON object (RFC 7515 section 4.1.3) or an x5c member that is an array (section 4.1.6) is read, if at all, as a header with a key.", "quantifier": "every header document", "why_tests_cant": "All documents.", "anchors": ["crates/openid4vci/src/jwt/mod.rs:ProofJwtHeader", "crates/openid4vci/src/jwt/mod.rs:ProofJwtAdditionalHeader"]}
{"id": "C86", "title": "Pre-evaluation succeeds for every valid request", "statement": "pre_evaluate_credential_request, documented to fail when the request is invalid, succeeds for every valid one; per the documentation of ProofJwt::extract_did it announces nothing when the key is given by jwk or x5c or the kid is not a DID.", "quantifier": "every valid credential request", "why_tests_cant": "All requests and keys.", "anchors": ["crates/openid4vci/src/credential_issuer/mod.rs:CredentialIssuer::pre_evaluate_credential_request", "crates/openid4vci/src/jwt/mod.rs:ProofJwt::extract_did"]}
{"id": "C87", "title": "Nonce and lifetime are supplied together", "statement": "As the documentation of CNonce says, c_nonce and c_nonce_expires_in always appear together in a credential response.", "quantifier": "every request, credential and nonce", "why_tests_cant": "All inputs.", "anchors": ["crates/openid4vci/src/credential_issuer/mod.rs:CNonce", "crates/openid4vci/src/credential_issuer/mod.rs:CredentialIssuer::create_credential_success_response"]}
{"id": "C88", "title": "Each operation reports exactly its kinds of errors", "statement": "create_offer reports exactly validation errors, unsupported flow and unknown id; evaluate_credential_request exactly validation, JWT, authorization server metadata, missing offer, expired nonce and missing proof; pre_evaluate_credential_request exactly validation and JWT errors; create_credential_success_response exactly validation errors; create_credential_error_response none. The other five declared variants are never reported.", "quantifier": "every input of the five operations, every error variant", "why_tests_cant": "Absence of a variant over all inputs.", "anchors": ["crates/openid4vci/src/credential_issuer/error.rs:CredentialIssuerError", "crates/openid4vci/src/credential_issuer/mod.rs:CredentialIssuer"]}
{"id": "C89", "title": "Padded base64 is RFC 4648 section 4, exactly", "statement": "base64::encode produces the padded base64 text of RFC 4648 section 4 for every byte string, base64::decode reads exactly those texts (alphabet with + and /, complete groups of four, canonical padding, zero trailing bits) and nothing else, and a text which both base64::decode and base64url::decode accept is read as the same bytes by both.", "quantifier": "every byte string and every string", "why_tests_cant": "All byte strings of every length and all malformed texts.", "anchors": ["crates/openid4vci/src/base.rs:base64", "crates/openid4vci/src/base.rs:base64url"]}
{"id": "C90", "title": "Documents are written with exactly the documented members", "statement": "Every document the library writes (offers with grants, credentials and claims, token requests and responses, credential requests and responses, JWT headers and bodies, metadata, settings, results of evaluation and pre-evaluation) is a JSON object with the members of the declaration under their documented names, each once, in order, nothing else; members declared to be skipped are left out exactly when they have no value. The members of a proof of possession hold its algorithm, key, message and signature.", "quantifier": "every value of each type", "why_tests_cant": "All values; a renamed or additional member only shows on the wire.", "anchors": ["crates/openid4vci/src/credential_issuer/mod.rs:CredentialOffer", "crates/openid4vci/src/credential_issuer/mod.rs:ProofOfPossession", "crates/openid4vci/src/credential_issuer/mod.rs:CredentialIssuerEvaluateRequestResponse", "crates/openid4vci/src/credential_issuer/mod.rs:PreEvaluateCredentialRequestResponse", "crates/openid4vci/src/credential_issuer/mod.rs:CredentialSuccessResponse", "crates/openid4vci/src/access_token/mod.rs:AccessTokenSuccessResponse", "crates/openid4vci/src/jwt/mod.rs:ProofJwtBody", "crates/openid4vci/src/types/credential_issuer_metadata.rs:CredentialIssuerMetadata", "crates/openid4vci/src/types/credential.rs:CredentialFormatProfile"]}
{"id": "C91", "title": "Error descriptions are ASCII", "statement": "As the documentation of ErrorResponse::error_description says, the description in an error response is ASCII text.", "quantifier": "every error code, description, URI and details", "why_tests_cant": "All strings.", "anchors": ["crates/openid4vci/src/error_response.rs:ErrorResponse", "crates/openid4vci/src/access_token/mod.rs:AccessToken::create_access_token_error_response", "crates/openid4vci/src/credential_issuer/mod.rs:CredentialIssuer::create_credential_error_response"]}
{"id": "C92", "title": "The issued credential is a string or the credential's object", "statement": "As the documentation of CredentialSuccessResponse::credential says (a JSON string or a JSON object, depending on the format), the credential member of a written response is a string for the encoded formats and the object of the credential itself for ldp_vc.", "quantifier": "every request, credential and nonce", "why_tests_cant": "All credentials of every format.", "anchors": ["crates/openid4vci/src/credential_issuer/mod.rs:CredentialSuccessResponse", "crates/openid4vci/src/types/credential.rs:CredentialFormatProfileOrEncoded", "crates/openid4vci/src/credential_issuer/mod.rs:CredentialIssuer::create_credential_success_response"]}
{"id": "C93", "title": "Members without a value are omitted", "statement": "Documents for wallets contain no null members: what the documentation describes as omitted (authorization_server, batch_credential_endpoint, expires_in and the other optional members) is left out when it has no value.", "quantifier": "every value of each type", "why_tests_cant": "All combinations of absent members.", "anchors": ["crates/openid4vci/src/access_token/mod.rs:AccessTokenSuccessResponse", "crates/openid4vci/src/credential_issuer/mod.rs:CredentialSuccessResponse", "crates/openid4vci/src/types/credential_issuer_metadata.rs:CredentialIssuerMetadata", "crates/openid4vci/src/types/credential_issuer_metadata.rs:CredentialSupported", "crates/openid4vci/src/types/credential_issuer_metadata.rs:DisplayProperties"]}
{"id": "C94", "title": "One display object per claim and language", "statement": "A credential that passes validation has, for each claim, display objects with distinct language identifiers, as the documentation of CredentialSubjectDisplay::locale requires.", "quantifier": "every credential", "why_tests_cant": "Lists of any length.", "anchors": ["crates/openid4vci/src/types/credential.rs:CredentialSubjectDisplay", "crates/openid4vci/src/types/credential.rs:CredentialSubject", "crates/openid4vci/src/types/credential.rs:CredentialFormatProfile"]}
{"id": "C95", "title": "DID binding methods are method names", "statement": "In metadata that validates, a binding method starting with did: consists of that prefix and a method name without a further colon, as the documentation of the field requires.", "quantifier": "every metadata value", "why_tests_cant": "All strings.", "anchors": ["crates/openid4vci/src/types/credential_issuer_metadata.rs:CredentialSupported", "crates/openid4vci/src/types/credential_issuer_metadata.rs:CredentialIssuerMetadata"]}
{"id": "C96", "title": "The body of an accepted JWT is UTF-8", "statement": "The body segment of every accepted proof JWT decodes to UTF-8 text, as RFC 7519 section 7.2 requires (a UTF-8-encoded representation of a completely valid JSON object).", "quantifier": "every string", "why_tests_cant": "All byte sequences in the body segment.", "anchors": ["crates/openid4vci/src/jwt/mod.rs:ProofJwt::from_str", "crates/openid4vci/src/jwt/mod.rs:ProofJwtBody"]}
{"id": "C97", "title": "Error messages are the catalogued ones", "statement": "The description of every error of the four enums is the text catalogued for its numeric code (for a transparent variant, for the code of what it carries) with the named fields filled in.", "quantifier": "every error value", "why_tests_cant": "Fields are arbitrary strings and instants.", "anchors": ["crates/openid4vci/src/validate.rs:ValidationError", "crates/openid4vci/src/jwt/error.rs:JwtError", "crates/openid4vci/src/access_token/error.rs:AccessTokenError", "crates/openid4vci/src/credential_issuer/error.rs:CredentialIssuerError", "crates/openid4vci/src/macros.rs:error_impl"]}
{"id": "C98", "title": "Numbers beyond the range of doubles are refused, all others are read", "statement": "A JSON number up to 1.797693134862315e308 in magnitude is read, however many digits it has; a document that contains one from 1.797693134862317e308 on is refused, in particular a JWT header with such a number in whatever member.", "quantifier": "every number text and every document", "why_tests_cant": "All numbers of every length and exponent.", "anchors": ["crates/openid4vci/src/jwt/mod.rs:ProofJwt::from_str", "crates/openid4vci/src/jwt/mod.rs:ProofJwtHeader", "crates/openid4vci/src/types/credential_issuer_metadata.rs:CredentialIssuerMetadata"]}
{"id": "C99", "title": "Floating-point numbers are written as the shortest decimals that denote them", "statement": "The text written for a double-precision number in a JSON document is the one with the fewest digits that is rounded to it, closest to it among those; it is a JSON number, it has the sign of the number, and different numbers have different texts.", "quantifier": "every double-precision number", "why_tests_cant": "There are 2^64 of them, and shortest decimals are hard to check by example.", "anchors": ["crates/openid4vci/src/types/credential_issuer_metadata.rs:CredentialIssuerMetadata", "crates/openid4vci/src/types/credential.rs:LinkedDataContext", "crates/openid4vci/src/credential_issuer/mod.rs:CredentialIssuer::create_offer"]}
{"id": "C100", "title": "Floating-point numbers survive writing and reading", "statement": "A double-precision number in a JSON document (additional metadata, JSON-LD contexts) is read back from its text as the same number.", "quantifier": "every double-precision number and every document", "why_tests_cant": "All numbers; the wrong ones differ in the last bit.", "anchors": ["crates/openid4vci/src/types/credential_issuer_metadata.rs:CredentialIssuerMetadata", "crates/openid4vci/src/types/credential.rs:LinkedDataContext", "crates/openid4vci/src/credential_issuer/mod.rs:CredentialIssuer::create_offer"]}
{"id": "C101", "title": "The details of an error are its fields", "statement": "The additional information of every error report is present: null for a variant without fields, otherwise an object with exactly the fields of the variant under their declared names, in alphabetical order, with their values (texts, instants, flags, bytes as numbers, null for absent ones, and the details of both errors for a token request that fails both flows).", "quantifier": "every error value of the four enums", "why_tests_cant": "Fields are arbitrary strings, instants, byte lists and nested errors.", "anchors": ["crates/openid4vci/src/validate.rs:ValidationError", "crates/openid4vci/src/jwt/error.rs:JwtError", "crates/openid4vci/src/access_token/error.rs:AccessTokenError", "crates/openid4vci/src/credential_issuer/error.rs:CredentialIssuerError", "crates/openid4vci/src/macros.rs:error_impl", "crates/openid4vci/src/error.rs:ErrorInformation"]}
{"id": "C102", "title": "Instants are written as RFC 3339 date-times", "statement": "Instants in reports and documents are written as RFC 3339 date-times in UTC, with as few groups of three fractional digits as they need, and in no other way.", "quantifier": "every instant of the date-time library", "why_tests_cant": "All instants from year -262144 to 262143 in nanoseconds.", "anchors": ["crates/openid4vci/src/jwt/error.rs:JwtError", "crates/openid4vci/src/credential_issuer/error.rs:CredentialIssuerError", "crates/openid4vci/src/jwt/mod.rs:ProofJwtBody", "crates/openid4vci/src/credential_issuer/mod.rs:CNonceOptions"]}
{"id": "C103", "title": "Validation messages name what is wrong", "statement": "Every check of a document fails exactly when its condition is violated, with its message: repeated ids in metadata, a nonce lifetime without nonce, the typ of a proof, the proof type, inline keys, unknown error codes and token types, missing JWT segments; and the message about a PIN that is too long names the number of digits supplied.", "quantifier": "every document and every string", "why_tests_cant": "Every string is a possible code, type or PIN; message texts are checked for one PIN only.", "anchors": ["crates/openid4vci/src/access_token/mod.rs:GrantType", "crates/openid4vci/src/access_token/mod.rs:AccessTokenSuccessResponse", "crates/openid4vci/src/types/credential_issuer_metadata.rs:CredentialIssuerMetadata", "crates/openid4vci/src/types/credential_request.rs:CredentialRequestProof", "crates/openid4vci/src/jwt/mod.rs:ProofJwtHeader", "crates/openid4vci/src/jwt/mod.rs:ProofJwtAdditionalHeader", "crates/openid4vci/src/jwt/mod.rs:ProofJwt::from_str", "crates/openid4vci/src/access_token/error_response.rs:AccessTokenErrorCode", "crates/openid4vci/src/credential_issuer/error_code.rs:CredentialIssuerErrorCode", "crates/openid4vci/src/types/token_type.rs:AccessTokenType"]}
{"id": "C104", "title": "One proof serves one issuer, one nonce and one subject", "statement": "Any two credential requests that are accepted with the same proof text were evaluated for the same credential issuer, the same expected nonce and, where configured, the same client, and yield the same subject, algorithm, message and signature; with the same DID document also the same key.", "quantifier": "every pair of evaluations, with arbitrary metadata, offers, documents, settings and times", "why_tests_cant": "Pairs of accepted requests over all configurations.", "anchors": ["crates/openid4vci/src/credential_issuer/mod.rs:CredentialIssuer::evaluate_credential_request", "crates/openid4vci/src/jwt/mod.rs:ProofJwt::from_str", "crates/openid4vci/src/jwt/mod.rs:ProofJwt::check_nonce", "crates/openid4vci/src/jwt/mod.rs:ProofJwt::check_aud"]}
{"id": "C105", "title": "A proof is accepted at most once", "statement": "In any history of evaluated credential requests no two accepted ones carry the same proof.", "quantifier": "every history of evaluations of any length", "why_tests_cant": "Histories are unbounded, and their calls differ in every argument.", "anchors": ["crates/openid4vci/src/credential_issuer/mod.rs:CredentialIssuer::evaluate_credential_request", "crates/openid4vci/src/credential_issuer/mod.rs:CNonceOptions"]}
{"id": "C106", "title": "A wrong PIN reveals nothing about the code", "statement": "With a PIN other than the configured one the outcome of a token request depends neither on the code that is sent nor on the code of the offer.", "quantifier": "every pair of codes, every offer, PIN and settings", "why_tests_cant": "Equality of outcomes over all pairs of codes.", "anchors": ["crates/openid4vci/src/access_token/mod.rs:AccessToken::evaluate_access_token_request"]}
{"id": "C107", "title": "An offer is redeemed by one request only", "statement": "For every offer and settings at most one token request is accepted, and there is one exactly if the offer has the pre-authorized grant and, where it requires a PIN, one of at most nine digits is configured.", "quantifier": "every offer and settings, every pair of token requests", "why_tests_cant": "Uniqueness over all codes and PINs.", "anchors": ["crates/openid4vci/src/access_token/mod.rs:AccessToken::evaluate_access_token_request", "crates/openid4vci/src/access_token/mod.rs:GrantType"]}
{"id": "C108", "title": "Reading a date-time never panics", "statement": "Whatever text stands in a date-time claim (iat, nbf, exp) of a JWT, reading it gives a value or an error and never panics; the value is the moment the text denotes, leap seconds included.", "quantifier": "every string", "why_tests_cant": "The texts that panic are a few thousand at the edge of the range of dates, with a leap second and one particular offset.", "anchors": ["crates/openid4vci/src/jwt/mod.rs:ProofJwtBody", "crates/openid4vci/src/jwt/mod.rs:ProofJwt::from_str"]}
{"id": "C109", "title": "Date-times with leap seconds survive writing and reading", "statement": "Every date-time, also one in a leap second, is written as a text that is read back as the same date-time.", "quantifier": "every value of the date-time type, leap seconds included", "why_tests_cant": "Leap seconds do not occur in tests.", "anchors": ["crates/openid4vci/src/jwt/mod.rs:ProofJwtBody", "crates/openid4vci/src/credential_issuer/mod.rs:CNonceOptions"]}
{"id": "C110", "title": "Lifetimes and periods count leap seconds consistently", "statement": "A nonce is refused exactly when more than its lifetime has elapsed since its creation, a leap second in which it was created being counted; a token that expires in a leap second is refused from the next minute on, and one that is not valid before a leap second is accepted from then on.", "quantifier": "every creation time, lifetime and claim, leap seconds included, and every time outside leap seconds", "why_tests_cant": "Leap seconds do not occur in tests; all nanoseconds around them.", "anchors": ["crates/openid4vci/src/credential_issuer/mod.rs:CredentialIssuer::evaluate_credential_request", "crates/openid4vci/src/credential_issuer/mod.rs:CNonceOptions", "crates/openid4vci/src/jwt/mod.rs:ProofJwt::verify"]}
{"id": "C111", "title": "The subject of a request is the DID of its key id", "statement": "The subject of every accepted credential request is what stands before the first slash, question mark or number sign in the key id of its JWT, which begins with did:; pre-evaluation announces the same, and refuses a valid request exactly if its key id does not begin with did:, with an error that names the key id.", "quantifier": "every request, configuration and DID document", "why_tests_cant": "Key ids are arbitrary strings; four components with three delimiters.", "anchors": ["crates/openid4vci/src/jwt/mod.rs:ProofJwt::extract_did", "crates/openid4vci/src/jwt/mod.rs:ProofJwtHeader::extract_key_and_alg", "crates/openid4vci/src/credential_issuer/mod.rs:CredentialIssuer::evaluate_credential_request", "crates/openid4vci/src/credential_issuer/mod.rs:CredentialIssuer::pre_evaluate_credential_request"]}
{"id": "C112", "title": "Subjects are DIDs", "statement": "The subject of every accepted credential request is a DID by the syntax of DID Core: did:, a method name, a colon and a method-specific identifier.", "quantifier": "every request, configuration and DID document", "why_tests_cant": "All strings as key ids.", "anchors": ["crates/openid4vci/src/jwt/mod.rs:ProofJwt::extract_did", "crates/openid4vci/src/jwt/mod.rs:ProofJwtHeader::extract_key_and_alg", "crates/openid4vci/src/credential_issuer/mod.rs:CredentialIssuer::evaluate_credential_request"]}
{"id": "C113", "title": "A missing key is reported under the key id of the token", "statement": "The error about a key that is not in the DID document names the key id of the JWT letter for letter, with path, query and fragment.", "quantifier": "every request, configuration and DID document", "why_tests_cant": "All strings as key ids; the test has one without path and query.", "anchors": ["crates/openid4vci/src/jwt/mod.rs:ProofJwtHeader::extract_key_and_alg", "crates/openid4vci/src/jwt/error.rs:JwtError", "crates/openid4vci/src/credential_issuer/mod.rs:CredentialIssuer::evaluate_credential_request"]}
{"id": "C114", "title": "Undecodable base64 is reported with what is wrong and where", "statement": "A text that is not base64 (in the variant at hand) is reported with exactly one fault: a single symbol left over, the first byte that is neither a symbol nor padding in its place, with its value and offset, wrong padding, or a last symbol with bits that belong to no byte; every other text is decoded. A proof JWT with such a segment is rejected with that report, the header's before the payload's.", "quantifier": "every string, in both variants, and every JWT", "why_tests_cant": "All strings of every length: the decoder works in blocks of eight bytes and treats the last one differently.", "anchors": ["crates/openid4vci/src/base.rs:base64url::decode", "crates/openid4vci/src/base.rs:base64::decode", "crates/openid4vci/src/jwt/mod.rs:ProofJwt::from_str", "crates/openid4vci/src/validate.rs:ValidationError"]}
{"id": "C115", "title": "An offer URL determines endpoint and offer", "statement": "Two offer URLs returned by the issuer are equal only if the offers (issuer, credentials, grants with code and PIN requirement) and the wallet endpoints they were created for are equal; no endpoint can imitate another offer.", "quantifier": "every pair of created offers, whatever their metadata, credentials, endpoints and flows", "why_tests_cant": "A collision needs a pair of endpoints and offers; all pairs are unboundedly many.", "anchors": ["crates/openid4vci/src/credential_issuer/mod.rs:CredentialIssuer::create_offer", "crates/openid4vci/src/return_object.rs:urlencode"]}
{"id": "C116", "title": "A failed token request reveals only whether code and PIN match", "statement": "As long as the code sent with a token request is wrong, the outcome is the same for every code the offer may contain; as long as the PIN sent is wrong or absent, the outcome is the same for every PIN the issuer may expect.", "quantifier": "every request, offer and pair of secrets", "why_tests_cant": "Compares the outcomes for all pairs of secrets; tests can only sample them.", "anchors": ["crates/openid4vci/src/access_token/mod.rs:AccessToken::evaluate_access_token_request"]}
{"id": "C117", "title": "The flow completes over the wire", "statement": "An honest wallet that only sees texts completes the flow: from the offer URL and the metadata text it gets the offer and resolves the same credentials as the issuer, its token request text is read and accepted, token and nonce are read from the answer's text, its credential request text is read, pre-evaluated with its DID and accepted, and it recovers the credential and the next nonce from the response text.", "quantifier": "every metadata, offer, code, PIN, token, nonce, proof and credential (within serde_json's nesting limit and without floating point additions), every endpoint without query and fragment, all times within the nonce's lifetime", "why_tests_cant": "Composition of all encoders, decoders and checks over all values.", "anchors": ["crates/openid4vci/src/credential_issuer/mod.rs:CredentialIssuer::create_offer", "crates/openid4vci/src/access_token/mod.rs:AccessToken::evaluate_access_token_request", "crates/openid4vci/src/credential_issuer/mod.rs:CredentialIssuer::evaluate_credential_request", "crates/openid4vci/src/credential_issuer/mod.rs:CredentialIssuer::create_credential_success_response"]}
{"id": "C118", "title": "Whatever was read can be written and read again", "statement": "An offer, credential request, credential response or issuer metadata that was read from a text is written as a text that is read again, as the same value exactly if the double-precision numbers in its JSON-LD contexts and additional members survive, and as the same value up to such numbers in any case; a proof JWT that was read is read as the same JWT after encoding its parts anew.", "quantifier": "every text that is read, with any order, duplicates, unknown members, array forms and nesting", "why_tests_cant": "Ranges over all accepted texts, most of which nobody would think of writing.", "anchors": ["crates/openid4vci/src/credential_issuer/mod.rs:CredentialOffer", "crates/openid4vci/src/types/credential_request.rs:CredentialRequest", "crates/openid4vci/src/credential_issuer/mod.rs:CredentialSuccessResponse", "crates/openid4vci/src/types/credential_issuer_metadata.rs:CredentialIssuerMetadata", "crates/openid4vci/src/jwt/mod.rs:ProofJwt"]}
{"id": "C119", "title": "Adding supported credentials leaves outstanding offers and requests alone", "statement": "When supported credentials are added or reordered, or other metadata of the same issuer changes, outstanding offers resolve to the same credentials, can be created again with the same URL, and every credential request has the same outcome; after removals an offer can be created again exactly if all ids it mentions remain.", "quantifier": "every pair of valid metadata of the same issuer, every offer and request", "why_tests_cant": "Relates the behaviour under two unboundedly large configurations.", "anchors": ["crates/openid4vci/src/credential_issuer/mod.rs:CredentialIssuer::create_offer", "crates/openid4vci/src/credential_issuer/mod.rs:CredentialOrIds::resolve_all", "crates/openid4vci/src/credential_issuer/mod.rs:CredentialIssuer::evaluate_credential_request"]}
{"id": "C120", "title": "With the checks left to the caller, exactly the valid key proofs are accepted", "statement": "A caller who pre-evaluates and evaluates a credential request, verifies the JWT and makes the checks the library leaves to callers accepts exactly the requests whose proof is a key proof as OpenID4VCI defines it, over the text of the token, for a credential the issuer offers. Each of the four checks left to the caller is needed: without it some request is accepted whose proof is not a key proof.", "quantifier": "every request, issuer with distinct ids, DID document and time, while the nonce is within its lifetime", "why_tests_cant": "An equivalence over all token texts; the definition of a key proof is independent of the order and places of the checks.", "anchors": ["crates/openid4vci/src/credential_issuer/mod.rs:CredentialIssuer::evaluate_credential_request", "crates/openid4vci/src/credential_issuer/mod.rs:CredentialIssuer::pre_evaluate_credential_request", "crates/openid4vci/src/jwt/mod.rs:ProofJwt::verify", "crates/openid4vci/src/jwt/mod.rs:ProofJwt"]}
{"id": "C121", "title": "The parameter of an offer URL is normalised", "statement": "The parameter of an offer URL is percent-encoded in the normal form of RFC 3986: unreserved characters stand for themselves and everything else is encoded with capital hexadecimal digits; it is the only text in normal form that decodes to the offer, and its length is determined by the numbers of unreserved and other octets.", "quantifier": "every offer and every string", "why_tests_cant": "All strings, with every Unicode character; uniqueness ranges over all other texts.", "anchors": ["crates/openid4vci/src/credential_issuer/mod.rs:CredentialIssuer::create_offer", "crates/openid4vci/src/return_object.rs:urlencode"]}
{"id": "C122", "title": "Unreadable JSON in a proof is reported with what is wrong and where", "statement": "A header or body of a proof JWT is either readable, and then no report exists, or it is rejected with exactly one report: a message and a line and column within the decoded octets. The fault never lies behind the place: no text with the same octets up to there and one more is readable. A missing or repeated claim is named; a claim of the wrong type, such as a numeric date, is called what it is and what it should have been. The same holds for `typ` and `alg` in a header; an unknown algorithm is reported with the list of all that are known.", "quantifier": "every header and every body, as octets, with every beginning that has nothing wrong with it and every continuation", "why_tests_cant": "All byte strings, including those that are not UTF-8 or not JSON; the statement about places ranges over every other text with the same beginning.", "anchors": ["crates/openid4vci/src/jwt/mod.rs:ProofJwt", "crates/openid4vci/src/jwt/mod.rs:ProofJwtHeader", "crates/openid4vci/src/jwt/mod.rs:ProofJwtBody", "crates/openid4vci/src/validate.rs:ValidationError"]}
{"id": "C123", "title": "Members nobody asks for are passed over unread, all others are read", "statement": "For every document of the protocol and of the application, a text is read exactly if what the type asks for is a JSON text of at most 127 levels describing the value, and the members it does not ask for are delimited as JSON. Everything that is read is a text of the JSON grammar. A further member in a document without flattened fields changes nothing, whatever its value: numbers beyond every range, lone surrogates, any nesting. In credential requests and issuer metadata, which keep further members, their values must be readable and nested at most 126 levels.", "quantifier": "every text, every further member and every continuation of the text behind it, every document type", "why_tests_cant": "The further member ranges over every text of the grammar and the rest of the document over all strings, readable or not; a test has one of each.", "anchors": ["crates/openid4vci/src/credential_issuer/mod.rs:CredentialOffer", "crates/openid4vci/src/access_token/mod.rs:AccessTokenRequest", "crates/openid4vci/src/types/credential_request.rs:CredentialRequest", "crates/openid4vci/src/types/credential_issuer_metadata.rs:CredentialIssuerMetadata", "crates/openid4vci/src/jwt/mod.rs:ProofJwt"]}
{"id": "C124", "title": "A date-time that cannot be read is reported with the first thing wrong with it", "statement": "For every text of iat, nbf or exp there is exactly one of: the moment it denotes, the panic of C108, or a fault. The fault is that of the first part of the format that is not there (the end of the text, another character, a number out of range), else a missing time, another separator, something after the time, or values that denote no moment. The report about the proof's body carries the fault's message and the place behind the string. In particular a date alone is not enough for a unique date and time, a time without offset and a number of up to four digits end prematurely, a longer number contains invalid characters, and impossible dates and times are out of range.", "quantifier": "every text, every body of a proof up to the claim and any continuation", "why_tests_cant": "Which of five messages is given depends on the first of two dozen parts that fails, on white space between them and on the octets of the text; a test has one text.", "anchors": ["crates/openid4vci/src/jwt/mod.rs:ProofJwt::from_str", "crates/openid4vci/src/jwt/mod.rs:ProofJwtBody"]}
{"id": "C125", "title": "A service which keeps the used codes and nonces issues each credential once, and only to the holder of the key", "statement": "Take a service which stores its offers, redeems each code once and hands out a nonce never used before, marks the nonce as used before it answers, and adds the checks of C120; requests interleave in any order, credentials may be added to the metadata while offers are outstanding (C119), and the service may stop at any point. Then in every state that it can come to: every answer is for a credential that the offer stood for when it was made, after a token request with the offer's code and PIN, with a valid key proof for this issuer and for the nonce handed out, within its lifetime, of a DID that resolves to the document with the key, and the answer names that DID, that key and the proof's algorithm; no offer is redeemed or answered twice; if signatures cannot be forged, behind every answer stands a message signed by the holder of the reported key which says for which issuer and nonce it is, so that whoever signed for other issuers only is not answered, and no message stands behind two answers; a valid key proof within the lifetime is answered; an answer lost when the service stops is not given later. If the nonce is marked only after answering, an offer can be answered twice.", "quantifier": "every setting of the service, every history of steps (offers, token requests, credential requests, deliveries, stops, changes of the metadata, the passing of time) of any length and interleaving", "why_tests_cant": "These are statements about all interleavings of any number of sessions and all points at which the service may stop; a test runs one schedule.", "anchors": ["crates/openid4vci/src/credential_issuer/mod.rs:CredentialIssuer::create_offer", "crates/openid4vci/src/access_token/mod.rs:AccessToken::evaluate_access_token_request", "crates/openid4vci/src/credential_issuer/mod.rs:CredentialIssuer::pre_evaluate_credential_request", "crates/openid4vci/src/credential_issuer/mod.rs:CredentialIssuer::evaluate_credential_request", "crates/openid4vci/src/jwt/mod.rs:ProofJwt::verify"]}
{"id": "C126", "title": "The key of a proof is the first verification method of the document with the named id", "statement": "With DID documents as ssi-dids keeps them, the key used for a key proof with a key id is that of the first verification method of the document whose id is the key id, letter for letter (or, if relative ids count, what follows the document's own DID in it); if no verification method has that id the request is refused with 'Resource not found', and references are not followed. No document makes the function panic at its `unreachable!`. If the ids are unique, only the set of verification methods counts: neither their order, nor the purposes (authentication, key agreement, ...) under which they stand, nor the references, nor the id of the document as long as ids are not relative to it.", "quantifier": "every document, key proof, request and setting", "why_tests_cant": "A test has one document with one key; the statement is about every arrangement of keys in a document.", "anchors": ["crates/openid4vci/src/jwt/mod.rs:ProofJwtHeader::extract_key_and_alg", "crates/openid4vci/src/credential_issuer/mod.rs:CredentialIssuer::evaluate_credential_request"]}
{"id": "C127", "title": "The document given for a key proof is the document of the named DID", "statement": "If a credential request is accepted with a DID document then the DID in the answer is the id of that document.", "quantifier": "every document, request and setting", "why_tests_cant": "A test passes the right document; that a wrong one is refused is a statement about all documents.", "anchors": ["crates/openid4vci/src/jwt/mod.rs:ProofJwtHeader::extract_key_and_alg", "crates/openid4vci/src/credential_issuer/mod.rs:CredentialIssuer::evaluate_credential_request"]}
{"id": "C128", "title": "The key of a proof is the one its jwk describes", "statement": "With JWKs as ssi-jwk reads them, a key proof whose header carries a `jwk` gives the key that the text describes: the public key of an octet key pair, or the x coordinate of an elliptic curve key that says it is for EdDSA, with the algorithm of the header; no other text gives a key. Which documents are JWKs is said member by member (RFC 7517, RFC 7518 section 6, RFC 8037 section 2); the order of the members and members with other names do not matter; a text that is no JWK is refused as such, with the text.", "quantifier": "every text, header and setting, and every reading of the parts of ssi-jwk left open", "why_tests_cant": "A test has a handful of keys; the statement is about all texts, their white space, escapes, orders, repeated and further members.", "anchors": ["crates/openid4vci/src/jwt/mod.rs:ProofJwtHeader::extract_key_and_alg", "crates/openid4vci/src/jwt/mod.rs:ProofJwtHeader::jwk_to_public_key_bytes"]}
{"id": "C129", "title": "Keys are taken only from the curves of EdDSA", "statement": "A key that is taken from the `jwk` of a header has the type of the keys for EdDSA (OKP), is on Ed25519 or Ed448, and has the length of the public keys of that curve.", "quantifier": "every text, header and setting", "why_tests_cant": "A test has one key of the right curve; that all others are refused is a statement about all texts.", "anchors": ["crates/openid4vci/src/jwt/mod.rs:ProofJwtHeader::extract_key_and_alg", "crates/openid4vci/src/jwt/mod.rs:ProofJwtHeader::jwk_to_public_key_bytes"]}
{"id": "C130", "title": "The key of a verification method is what its only key material means", "statement": "With verification methods as ssi-dids keeps them, the key taken from a method is the one its only key material (publicKeyJwk, publicKeyBase58, publicKeyHex or publicKeyMultibase) means for a method of its type; methods with none or with several are refused, and nothing else in a method matters. The key for a key proof with a key id is that of the first verification method with that id. A JWK gives the same result in the header and in the document.", "quantifier": "every verification method, document and header, and every reading of the encodings", "why_tests_cant": "A test has one document with a JWK; the statement is about all combinations of key material.", "anchors": ["crates/openid4vci/src/jwt/mod.rs:ProofJwtHeader::extract_key_and_alg"]}
{"id": "C131", "title": "Which request texts are accepted, in terms of the texts alone", "statement": "With all other crates by their models, evaluation accepts the text of a credential request exactly if it describes a request whose proof is the text of a JWT of the right type, for the expected nonce in its lifetime, for this issuer and client, which names by a DID URL a key of the given document, and which has a signature or a dot in its texts; it then reports that key, the algorithm of the header, the DID of the key id and the requested credential. Of what is left open about the other crates only the search in documents and the meaning of key material bear on it.", "quantifier": "every request text, document, metadata, offer and setting, and every reading of what is left open", "why_tests_cant": "The statement composes JSON, base64url, UTF-8, date-times, DID URLs, DID documents and the checks; a test has a handful of texts.", "anchors": ["crates/openid4vci/src/credential_issuer/mod.rs:CredentialIssuer::evaluate_credential_request", "crates/openid4vci/src/jwt/mod.rs:ProofJwt::from_str", "crates/openid4vci/src/jwt/mod.rs:ProofJwtHeader::extract_key_and_alg"]}
{"id": "C132", "title": "A header or body that is no object is reported as what it is", "statement": "A header that is no object, and a body that is neither an object nor an array, is reported with what it is; a string is repeated in quotes in the way of Rust's Debug, which shows no control characters and from which the string can be read back, wherever the report goes on. A body that is an array is reported with the number of its elements if there are too few, with the first element that is not what the claim in its place has to be, or as not ending where it should; always with the place.", "quantifier": "every header and body, whatever follows the point of the error, and every choice of shown characters", "why_tests_cant": "The repository has no test of such reports, and the quoting is about all characters.", "anchors": ["crates/openid4vci/src/jwt/mod.rs:ProofJwt::from_str", "crates/openid4vci/src/validate.rs:ValidationError"]}
{"id": "C133", "title": "A rejected credential request does not tell the nonce", "statement": "While the proof of a request carries another nonce, the report of its rejection is the same whatever nonce is expected: a wallet, or whoever sees the report, cannot take the nonce from it.", "quantifier": "every request, configuration and point in time, and every pair of nonces that the proof does not carry", "why_tests_cant": "That nothing is told of a value is a statement about all its values; the repository's test compares the error for one nonce only.", "anchors": ["crates/openid4vci/src/jwt/mod.rs:ProofJwt::check_nonce", "crates/openid4vci/src/jwt/error.rs:JwtError", "crates/openid4vci/src/credential_issuer/mod.rs:CredentialIssuer::evaluate_credential_request"]}
{"id": "C134", "title": "The report about unreadable JSON depends on what was read", "statement": "A report about the header or body of a proof JWT that cannot be read names one place. Any other header or body with the same octets up to that place and one more, followed by at least three octets, gets the very same report; a proof with such a header is rejected with it whatever body and signature it has.", "quantifier": "every sequence of octets, every continuation of what precedes the place, all externals", "why_tests_cant": "That nothing behind a place has an influence is a statement about all continuations.", "anchors": ["crates/openid4vci/src/jwt/mod.rs:ProofJwt::from_str", "crates/openid4vci/src/jwt/mod.rs:ProofJwtHeader", "crates/openid4vci/src/jwt/mod.rs:ProofJwtBody"]}
{"id": "C135", "title": "The message about a value that cannot be read tells where it is", "statement": "The validation error made from an error with a path tells the path and the original message: equal errors come from equal paths (members and variants of one name apart) and equal messages, for all paths of which something is known.", "quantifier": "every path, every message, every choice of the paths that are left out as nothing is known of them", "why_tests_cant": "Ambiguity shows only for pairs of paths; the repository has no test of this conversion.", "anchors": ["crates/openid4vci/src/validate.rs:From<serde_path_to_error::Error<serde_json::Error>> for ValidationError"]}
{"id": "C136", "title": "Everything written is one line of text", "statement": "The JSON text of every value, result and report has no control characters, not even as octets of its UTF-8 form, whatever strings are in it; an offer URL has none unless the wallet's endpoint has, and a proof JWT none unless its signature has. So documents or results written one on each line are determined by the stream.", "quantifier": "every JSON document and result, all lists of them, all strings", "why_tests_cant": "That no string can break a line or forge a second one is about all strings.", "anchors": ["crates/openid4vci/src/error_response.rs:ReturnObject", "crates/openid4vci/src/credential_issuer/mod.rs:CredentialIssuer::create_offer", "crates/openid4vci/src/jwt/mod.rs:ProofJwt", "crates/openid4vci/src/error.rs:ErrorInformation"]}
{"id": "C137", "title": "Replies to malformed input are bounded by what was sent", "statement": "The message about an unreadable JWT header or body has at most 11 characters for each octet sent and 4100 more, and so has the message about any text that is no key proof; the JSON text replied to a credential request with such a proof has at most 66 characters for each octet of the proof and 25000 more; every rejection of an access token request is at most 400 characters of JSON, whatever was sent or is known.", "quantifier": "all octet strings, proofs, requests, offers, options and sets of printable characters", "why_tests_cant": "A bound on the answer to every input is no matter of single inputs; the longest answers are to numbers written out and to quoted characters.", "anchors": ["crates/openid4vci/src/jwt/mod.rs:ProofJwt::from_str", "crates/openid4vci/src/validate.rs:ValidationError", "crates/openid4vci/src/credential_issuer/mod.rs:CredentialIssuer::evaluate_credential_request", "crates/openid4vci/src/access_token/mod.rs:AccessToken::evaluate_access_token_request"]}
{"id": "C138", "title": "A report has additional information only if the error has some", "statement": "The member additional_information, which is marked to be skipped when there is none, is written for an error exactly if the error has fields; both forms of error_impl! report every error alike.", "quantifier": "every error of the four enums, with all values of the fields", "why_tests_cant": "All variants with all nested errors, in both forms of the macro, of which the tests use one.", "anchors": ["crates/openid4vci/src/macros.rs:error_impl", "crates/openid4vci/src/error.rs:ErrorInformation"]}
{"id": "C139", "title": "A proof cannot be altered without its message or signature changing", "statement": "Two accepted credential requests whose message and signature to be checked are equal carry the same proof text.", "quantifier": "all pairs of accepted requests, at all times and with all settings", "why_tests_cant": "All texts an attacker may derive from an intercepted proof: what is appended, and claims of every name and value put into the body.", "anchors": ["crates/openid4vci/src/jwt/mod.rs:ProofJwt", "crates/openid4vci/src/credential_issuer/mod.rs:evaluate_credential_request"]}
{"id": "C140", "title": "A header or body that is cut off or runs on is rejected, at that place", "statement": "Of a readable header or body of a proof JWT, followed by further octets, exactly those are readable where whitespace follows; otherwise the report is `trailing characters` at the first octet that is no whitespace. Any beginning of a readable header or body that leaves out more than whitespace is rejected with a report whose place is its end.", "quantifier": "all octet sequences, cut at every place and continued in every way", "why_tests_cant": "All documents with all ways to cut and to continue them.", "anchors": ["crates/openid4vci/src/jwt/mod.rs:ProofJwt", "crates/openid4vci/src/validate.rs:ValidationError"]}
{"id": "C141", "title": "Every document names each member once", "statement": "No object in a document the library writes, at any depth, has two members with the same name, so that all readers take the same from it (RFC 8259 section 4, RFC 7493 section 2.3): offers, token requests and responses, credential requests and responses, proof headers and bodies, options, results, return objects, error information, issuer metadata and error responses.", "quantifier": "all values of these types, with any strings, maps and nested JSON values", "why_tests_cant": "All values, at every depth; a test would have to think of a caller's map that repeats a name of the library's.", "anchors": ["crates/openid4vci/src/types/credential_issuer_metadata.rs:CredentialIssuerMetadata", "crates/openid4vci/src/error_response.rs:ErrorResponse", "crates/openid4vci/src/types/credential_request.rs:CredentialRequest", "crates/openid4vci/src/jwt/mod.rs:ProofJwtHeader"]}
{"id": "C142", "title": "The order of members means nothing, at any depth", "statement": "Two documents that differ only in the order of the members of their objects, at any depth, are read as the same value (RFC 8259 section 1): credentials, offers, token requests and responses, credential requests and responses, issuer metadata, proof headers and bodies, nonces and options. Values are the same when they are equal up to the order of the entries of hash maps.", "quantifier": "all documents with unique member names and all reorderings of them, at every depth", "why_tests_cant": "All reorderings at all depths; tests read a document in the order it was written in.", "anchors": ["crates/openid4vci/src/types/credential_issuer_metadata.rs:CredentialIssuerMetadata", "crates/openid4vci/src/types/credential_request.rs:CredentialRequest", "crates/openid4vci/src/jwt/mod.rs:ProofJwtHeader", "crates/openid4vci/src/jwt/mod.rs:ProofJwtAdditionalHeader"]}
{"id": "C143", "title": "The same input gives the same output", "statement": "Values that are equal in Rust, that is up to the order in which their hash maps are iterated (which differs between equal maps and between runs), give equal outcomes: the same decision and the same error or value of create_offer, evaluate_access_token_request, pre_evaluate_credential_request, evaluate_credential_request and create_credential_success_response, and the same text where text is made.", "quantifier": "all metadata, offers, requests and credentials and all orders of the entries of their maps", "why_tests_cant": "The order of a HashMap is random for each map; a test sees one order per run, and asserts on maps with one entry never fail.", "anchors": ["crates/openid4vci/src/credential_issuer/mod.rs:CredentialIssuer::create_offer", "crates/openid4vci/src/credential_issuer/mod.rs:CredentialOffer::url_encode", "crates/openid4vci/src/types/credential.rs:TryFrom<CredentialFormatProfile> for CredentialFormatProfileOrEncoded", "crates/openid4vci/src/credential_issuer/mod.rs:CredentialIssuer::evaluate_credential_request", "crates/openid4vci/src/access_token/mod.rs:AccessToken::evaluate_access_token_request"]}
{"id": "C144", "title": "A member that is null is read like one that is left out", "statement": "Adding to an object a member that is null, under a name the object does not have, does not change what is read from it: optional members may be null, members that must be there may not be replaced by null, and unknown members are ignored.", "quantifier": "all objects, all places in them and all names, for each type that is read", "why_tests_cant": "A test has to think of null for each member of each type, and most do not; the default of an absent member and a flattened enum treat null in their own way.", "anchors": ["crates/openid4vci/src/types/credential_request.rs:CredentialRequestProof", "crates/openid4vci/src/jwt/mod.rs:ProofJwtHeader", "crates/openid4vci/src/jwt/mod.rs:ProofJwtAdditionalHeader", "crates/openid4vci/src/types/credential_issuer_metadata.rs:CredentialIssuerMetadata", "crates/openid4vci/src/credential_issuer/mod.rs:CredentialOffer", "crates/openid4vci/src/types/credential_request.rs:CredentialRequest"]}
{"id": "C145", "title": "White space between tokens means nothing", "statement": "Two texts of the JSON grammar that become the same when the white space outside of their strings is left out are read as the same offer, request, response, metadata, credential, settings or nonce, or are both refused; and proofs whose headers and bodies differ in such white space only are read as the same proof.", "quantifier": "all pairs of texts, all types", "why_tests_cant": "Tests use texts in one layout; white space in every place of every text cannot be enumerated.", "anchors": ["crates/openid4vci/src/credential_issuer/mod.rs:CredentialOffer", "crates/openid4vci/src/access_token/mod.rs:AccessTokenRequest", "crates/openid4vci/src/types/credential_request.rs:CredentialRequest", "crates/openid4vci/src/types/credential_issuer_metadata.rs:CredentialIssuerMetadata", "crates/openid4vci/src/jwt/mod.rs:FromStr for ProofJwt"]}
{"id": "C146", "title": "Members a type does not know are ignored, at any depth", "statement": "Two documents that differ only in members whose names the type at that place does not have are read as the same value: further members in an offer, its credentials, claims and grants, in token requests and responses, credential requests and their proof, headers and bodies of proofs, responses, supported credentials, metadata and settings.", "quantifier": "all pairs of documents that are alike but for unknown members, at all depths at once", "why_tests_cant": "A test adds one member to one object; flattened and tagged types pass the members on to each other, so that an unknown member of one may be known to another.", "anchors": ["crates/openid4vci/src/credential_issuer/mod.rs:CredentialOffer", "crates/openid4vci/src/types/credential_request.rs:CredentialRequest", "crates/openid4vci/src/jwt/mod.rs:ProofJwtHeader", "crates/openid4vci/src/jwt/mod.rs:ProofJwtBody", "crates/openid4vci/src/types/credential_issuer_metadata.rs:CredentialIssuerMetadata", "crates/openid4vci/src/types/credential_issuer_metadata.rs:CredentialSupported", "crates/openid4vci/src/access_token/mod.rs:AccessTokenRequest"]}
{"id": "C147", "title": "How a document is spelled means nothing", "statement": "All texts that denote the same JSON value by RFC 8259, with whatever escapes in member names and strings, digits and exponents in numbers, and white space, are read as the same offer, request, response, metadata, settings or nonce, or are all refused; proofs whose headers and bodies are respelled are accepted alike and with the same result.", "quantifier": "all pairs of texts of one value, all types", "why_tests_cant": "A value has unboundedly many spellings, and tests use the one their JSON library writes.", "anchors": ["crates/openid4vci/src/credential_issuer/mod.rs:CredentialOffer", "crates/openid4vci/src/access_token/mod.rs:AccessTokenRequest", "crates/openid4vci/src/types/credential_request.rs:CredentialRequest", "crates/openid4vci/src/types/credential_issuer_metadata.rs:CredentialIssuerMetadata", "crates/openid4vci/src/jwt/mod.rs:FromStr for ProofJwt", "crates/openid4vci/src/credential_issuer/mod.rs:evaluate_credential_request"]}
{"id": "C148", "title": "The reply to every rejected credential request is bounded", "statement": "However a credential request is rejected, by evaluation or before it, the text of the error is at most a fixed multiple of the octets of the proof that was sent, plus a fixed multiple of the issuer's own values (its name, client id, nonce and instants), plus a constant that depends on the libraries only; with the modelled JSON, base64, DID and date libraries that constant is known.", "quantifier": "all requests, offers, settings, instants, documents and metadata; all library behaviours whose messages are linear in their input", "why_tests_cant": "A blow-up of the reply shows only for particular long inputs, of which there are unboundedly many.", "anchors": ["crates/openid4vci/src/credential_issuer/mod.rs:evaluate_credential_request", "crates/openid4vci/src/credential_issuer/mod.rs:pre_evaluate_credential_request", "crates/openid4vci/src/credential_issuer/error.rs:CredentialIssuerError", "crates/openid4vci/src/jwt/error.rs:JwtError", "crates/openid4vci/src/error_response.rs:ErrorInformation", "crates/openid4vci/src/jwt/mod.rs:FromStr for ProofJwt"]}
{"id": "C149", "title": "A header or body that is cut off is reported as cut off", "statement": "If a JWT's header or body is cut off before its last token, the report places the error at the end of what is there and says that the text ended too early (in a list, an object, a string or a value). The only other messages are, for a header, that of a number beyond the range whose negative exponent was cut off, and, for a body, that of an incomplete number in a member that is not known; a body written as an array has no exception.", "quantifier": "all readable headers and bodies, all places where they are cut", "why_tests_cant": "There are as many cuts as octets in every document; tests try a few.", "anchors": ["crates/openid4vci/src/jwt/mod.rs:FromStr for ProofJwt", "crates/openid4vci/src/jwt/mod.rs:ProofJwtHeader", "crates/openid4vci/src/jwt/mod.rs:ProofJwtBody"]}
{"id": "C150", "title": "What is said to have ended too early is what was open", "statement": "If a JWT's header or body is cut off before its last token, the report speaks of a string exactly if the cut is inside a string (by counting quotation marks and backslashes), of a list only if the innermost bracket left open is a square one, and of an object only if it is a curly one.", "quantifier": "all readable headers and bodies, all places where they are cut", "why_tests_cant": "There are as many cuts as octets in every document, at any depth of nesting; tests try a few.", "anchors": ["crates/openid4vci/src/jwt/mod.rs:FromStr for ProofJwt", "crates/openid4vci/src/jwt/mod.rs:ProofJwtHeader", "crates/openid4vci/src/jwt/mod.rs:ProofJwtBody"]}
{"id": "C151", "title": "No document begins with another", "statement": "If a text is read as an offer, a request, a response, metadata, settings, a nonce, a credential or a proof, then that text and anything after it is read exactly if white space follows, and as the same; so texts that are cut off before their last token or run on after it are refused.", "quantifier": "all texts of all documents, everything that may follow", "why_tests_cant": "Every text has as many beginnings as characters and infinitely many continuations; tests try a few.", "anchors": ["crates/openid4vci/src/credential_issuer/mod.rs:CredentialOffer", "crates/openid4vci/src/access_token/mod.rs:AccessTokenRequest", "crates/openid4vci/src/types/credential_request.rs:CredentialRequest", "crates/openid4vci/src/types/credential_issuer_metadata.rs:CredentialIssuerMetadata"]}
{"id": "C152", "title": "Cutting a proof off or adding to it changes neither header nor claims", "statement": "If a string is read as a proof JWT and so is that string with anything after it, both have the same header and the same claims, and the signature of the shorter one, if it has any, is the beginning of the other's. An accepted request stays accepted with the longer proof, and with the shorter one if that has a signature, for the same subject, key, algorithm and credential; the subject announced before is the same.", "quantifier": "all strings, everything that may follow, all requests, offers, documents, settings and times", "why_tests_cant": "The cut may be anywhere, also inside of the base64 text of the body, where the octets are cut with it; tests try a few places.", "anchors": ["crates/openid4vci/src/jwt/mod.rs:FromStr for ProofJwt", "crates/openid4vci/src/base.rs:base64url::decode", "crates/openid4vci/src/credential_issuer/mod.rs:CredentialIssuer::evaluate_credential_request", "crates/openid4vci/src/credential_issuer/mod.rs:CredentialIssuer::pre_evaluate_credential_request"]}
{"id": "C153", "title": "Only differences of times matter", "statement": "If the clock and the instants that belong to it (creation of the nonce, period of validity of a proof) are all moved by the same amount, evaluating a credential request, checking the period of validity and creating responses give the same result, with the instants in it moved by that amount, as long as the end of the nonce's lifetime can be represented.", "quantifier": "all amounts, instants, requests, offers, documents and settings", "why_tests_cant": "Tests run at one time of one clock.", "anchors": ["crates/openid4vci/src/credential_issuer/mod.rs:CredentialIssuer::evaluate_credential_request", "crates/openid4vci/src/jwt/mod.rs:ProofJwt::verify", "crates/openid4vci/src/credential_issuer/mod.rs:CredentialIssuer::create_credential_success_response", "crates/openid4vci/src/access_token/mod.rs:AccessToken::create_access_token_success_response"]}
{"id": "C154", "title": "A wrong octet between the members of a header or body is reported with its place", "statement": "If, after a beginning of a header or body in which everything is as it has to be, something else than a name stands where one is due, a comma is followed by the closing brace, a member is followed by something else than a comma or closing brace, a name is followed by something else than a colon, or the string of the name contains a control character, an escape that is none, or a digit that is none in a four-digit escape, or the string of a claim, of the type, of the algorithm, or of a member that is not known contains one of these (a control character in a member the body does not know is reported with the place in front of it), or a claim, the type, or a member that is not known has a number that lacks a digit after its sign, point or exponent, a literal with a wrong letter, or something no value begins with, or the algorithm begins with something that begins neither a string nor an object, the proof is rejected with the message for that, and with the line and column of the first octet that is wrong; what follows plays no part.", "quantifier": "all beginnings, names, white space, octets and continuations", "why_tests_cant": "Tests try a few malformed texts and seldom look at the column.", "anchors": ["crates/openid4vci/src/jwt/mod.rs:ProofJwt::from_str", "crates/openid4vci/src/jwt/mod.rs:ProofJwtHeader", "crates/openid4vci/src/jwt/mod.rs:ProofJwtBody"]}
