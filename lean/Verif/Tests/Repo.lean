import Verif.Props.Claims
import Verif.Model.AccessToken
import Verif.Model.Document
import Verif.Props.Jwk

/-!
The repository's own unit tests, replayed on the model by evaluation in the kernel. These are tests
of the model's faithfulness, not claims. Each section names the test module; each `example` names the
test function. The externals are instantiated as below: chrono, DID URLs, DID documents and JWKs by
their models, a verification method by its key.
-/

namespace Oid4vci.Tests

/-- The externals of the tests. -/
def ext : Ext :=
  withChrono (withJwks Ex.jwkRules (withDocuments ⟨true, false⟩ { Ex.ext with VM := Jwk, getJwk := .ok }))

/-- The value of a successful call. -/
def okOf {ε α : Type} : Res ε α → Option α
  | .ok a => some a
  | _ => none

/-! ### jwt/mod.rs `test_jwt` -/

/-- jwt/mod.rs:594: the test vector. -/
def jwt1 : Str := str! "eyJraWQiOiJkaWQ6ZXhhbXBsZTplYmZlYjFmNzEyZWJjNmYxYzI3NmUxMmVjMjEva2V5cy8xIiwiYWxnIjoiRVMyNTYiLCJ0eXAiOiJKV1QifQ.eyJpc3MiOiJzNkJoZFJrcXQzIiwiYXVkIjoiaHR0cHM6Ly9zZXJ2ZXIuZXhhbXBsZS5jb20iLCJpYXQiOiIyMDE4LTA5LTE0VDIxOjE5OjEwWiIsIm5vbmNlIjoidFppZ25zbkZicCJ9"

/-- The structure of the test vector. -/
def parsed1 : ProofJwt :=
  ⟨⟨str! "JWT", .ES256, some (.keyId (str! "did:example:ebfeb1f712ebc6f1c276e12ec21/keys/1"))⟩,
    ⟨some (str! "s6BhdRkqt3"), str! "https://server.example.com", none, 1536959950 * 1000000000,
      str! "tZignsnFbp", none, none⟩, none⟩

/-- should_create_structure_from_valid_jwt -/
example : ProofJwt.fromStr ext jwt1 = .ok parsed1 := by decide +kernel

/-- should_verify_valid_jwt -/
example (now : Time) : parsed1.verify now = .ok () := rfl

/-- should_error_on_invalid_issuer_id -/
example : parsed1.checkIss (some (str! "invalid-id")) =
    .err (.issuerMismatch (some (str! "invalid-id")) (some (str! "s6BhdRkqt3"))) := by
  decide +kernel

/-- A month of the tests, in nanoseconds. -/
def month : Int := 2592000000000000

/-- should_error_on_invalid_expires_date -/
example (now : Int) :
    ProofJwt.verify ⟨⟨str! "JWT", .HS256, none⟩,
      ⟨none, str! "aud", none, now, str! "nonce", none, some (now - 32 * month)⟩, none⟩ now =
      .err (.notValidAnymore (now - 32 * month) now) := by
  have h : now - 32 * month < now := Int.sub_lt_self _ (by decide)
  simp [ProofJwt.verify, h]

/-- should_error_on_invalid_not_before_date -/
example (now : Int) :
    ProofJwt.verify ⟨⟨str! "JWT", .HS256, none⟩,
      ⟨none, str! "aud", none, now, str! "nonce", some (now + 32 * month), none⟩, none⟩ now =
      .err (.notYetValid (now + 32 * month) now) := by
  have h : now < now + 32 * month := Int.lt_add_of_pos_right _ (by decide)
  simp [ProofJwt.verify, h]

/-- The DID document of the two tests. -/
def doc1 : Document Jwk :=
  ⟨str! "did:example:123",
    some [.method (str! "did:example:123#key-0")
      ⟨some SsiAlg.edDSA, .okp ((base64urlDecode (str! "abc")).getD [])⟩],
    none, none, none, none, none, none⟩

/-- should_correctly_extract_public_key_from_did_and_did_doc -/
example : ProofJwtHeader.extractKeyAndAlg ext
    ⟨str! "JWT", .none, some (.keyId (str! "did:example:123#key-0"))⟩ (some doc1) =
    .ok ([105, 183], .none) := by decide +kernel

/-- should_fail_if_did_is_not_in_did_doc -/
example : ProofJwtHeader.extractKeyAndAlg ext
    ⟨str! "JWT", .none, some (.keyId (str! "did:example:123#key-100"))⟩ (some doc1) =
    .err (.unableToResolveDidInDidDocument (str! "did:example:123#key-100")
      (str! "Resource not found")) := by decide +kernel

/-- should_error_if_did_is_supplied_without_did_doc -/
example : ProofJwtHeader.extractKeyAndAlg ext
    ⟨str! "JWT", .none, some (.keyId (str! "did:example/key1"))⟩ none =
    .err .noDidDocumentProvidedForKidAsDid := by decide +kernel

/-- should_correctly_extract_public_key_ed25519_as_jwk -/
example : ProofJwtHeader.extractKeyAndAlg ext
    ⟨str! "JWT", .EdDSA, some (.jwk (str! "{\"kty\": \"EC\",\"crv\": \"ed25519\",\"x\": \"AAECAw\",\"alg\": \"EdDSA\"}"))⟩
    none = .ok ([0, 1, 2, 3], .EdDSA) ∧ base64urlEncode [0, 1, 2, 3] = str! "AAECAw" := by
  decide +kernel

/-- should_not_extract_ed25519_key_if_x_is_not_defined -/
example : ProofJwtHeader.extractKeyAndAlg ext
    ⟨str! "JWT", .EdDSA, some (.jwk (str! "{\"kty\": \"EC\",\"crv\": \"ed25519\",\"alg\": \"EdDSA\"}"))⟩
    none = .err .edDSAHasNoXCoordinate := by decide +kernel

/-- should_not_extract_es256_key -/
example : ProofJwtHeader.extractKeyAndAlg ext
    ⟨str! "JWT", .ES256, some (.jwk (str! "{\"kty\": \"EC\",\"crv\": \"secpk256\",\"alg\": \"ES256\"}"))⟩
    none = .err (.unsupportedAlgorithm (str! "\"ES256\"")) := by decide +kernel

/-- should_fail_when_unsupported_rsa_algorithm_is_used -/
example : ProofJwtHeader.extractKeyAndAlg ext
    ⟨str! "JWT", .RS256, some (.jwk (str! "{\"kty\": \"EC\",\"alg\": \"RS256\",\"e\": \"a\",\"n\": \"bc\"}"))⟩
    none = .err (.unsupportedAlgorithm (str! "\"RS256\"")) := by decide +kernel

/-- should_fail_when_unsupported_rsassa_ps_algorithm_is_used -/
example : ProofJwtHeader.extractKeyAndAlg ext
    ⟨str! "JWT", .PS256, some (.jwk (str! "{\"kty\": \"EC\",\"alg\": \"PS256\",\"e\": \"a\",\"n\": \"bc\"}"))⟩
    none = .err (.unsupportedAlgorithm (str! "\"PS256\"")) := by decide +kernel

/-- should_fail_when_symmetric_is_used -/
example : ProofJwtHeader.extractKeyAndAlg ext
    ⟨str! "JWT", .HS256, some (.jwk (str! "{\"kty\": \"oct\",\"alg\": \"HS256\",\"k\": \"abc\"}"))⟩
    none = .err (.unsupportedAlgorithm (str! "\"HS256\"")) := by decide +kernel

/-! ### credential_issuer/mod.rs `test_create_credential_offer` -/

/-- happy_flow -/
example : CredentialIssuer.createOffer CredentialIssuerMetadata.default
    [.credential (.ldpVc [.string (str! "context_one")] [str! "type_one"] none none)] none none
    (some ⟨str! "ABC", none⟩) =
    .ok (⟨[], [.credential (.ldpVc [.string (str! "context_one")] [str! "type_one"] none none)],
        ⟨none, some ⟨str! "ABC", none⟩⟩⟩,
      str! "openid-credential-offer://credential_offer=%7B%22credential_issuer%22%3A%22%22%2C%22credentials%22%3A%5B%7B%22format%22%3A%22ldp_vc%22%2C%22%40context%22%3A%5B%22context_one%22%5D%2C%22types%22%3A%5B%22type_one%22%5D%7D%5D%2C%22grants%22%3A%7B%22urn%3Aietf%3Aparams%3Aoauth%3Agrant-type%3Apre-authorized_code%22%3A%7B%22pre-authorized_code%22%3A%22ABC%22%7D%7D%7D") := by
  decide +kernel

/-- should_error_when_using_authorized_flow -/
example : CredentialIssuer.createOffer CredentialIssuerMetadata.default [] (some []) (some ⟨none⟩)
    none = .err .authorizedFlowNotSupported := by decide +kernel

/-- should_error_when_supplying_credential_id_that_is_not_in_issuer_metadata -/
example : CredentialIssuer.createOffer CredentialIssuerMetadata.default
    [.credentialId (str! "id_one")] (some []) none (some ⟨[], none⟩) =
    .err (.credentialIdNotInIssuerMetadata (str! "id_one")) := by decide +kernel

/-! ### credential_issuer/mod.rs `test_pre_evaluate_credential_request` -/

/-- The format of the requests. -/
def format1 : CredentialFormatProfile := .ldpVc [] [] none none

/-- happy_flow -/
example : CredentialIssuer.preEvaluateCredentialRequest ext
    ⟨format1, some ⟨str! "jwt", str! "eyJraWQiOiJkaWQ6ZXhhbXBsZTplYmZlYjFmNzEyZWJjNmYxYzI3NmUxMmVjMjEva2V5cy8xIiwiYWxnIjoiRVMyNTYiLCJ0eXAiOiJvcGVuaWQ0dmNpLXByb29mK2p3dCJ9.eyJpc3MiOiJzNkJoZFJrcXQzIiwiYXVkIjoiaHR0cHM6Ly9zZXJ2ZXIuZXhhbXBsZS5jb20iLCJpYXQiOiIyMDE4LTA5LTE0VDIxOjE5OjEwWiIsIm5vbmNlIjoidFppZ25zbkZicCJ9"⟩⟩ =
    .ok ⟨some (str! "did:example:ebfeb1f712ebc6f1c276e12ec21")⟩ := by decide +kernel

/-- should_not_work_with_jwk -/
example : CredentialIssuer.preEvaluateCredentialRequest ext
    ⟨format1, some ⟨str! "jwt", str! "eyJqd2siOiJ1bmtub3duIiwiYWxnIjoiRVMyNTYiLCJ0eXAiOiJvcGVuaWQ0dmNpLXByb29mK2p3dCJ9.eyJpc3MiOiJzNkJoZFJrcXQzIiwiYXVkIjoiaHR0cHM6Ly9zZXJ2ZXIuZXhhbXBsZS5jb20iLCJpYXQiOiIyMDE4LTA5LTE0VDIxOjE5OjEwWiIsIm5vbmNlIjoidFppZ25zbkZicCJ9"⟩⟩ =
    .err (.jwtError (.unsupportedKeyTypeInJwtHeader (str! "jwk") (str! "unknown"))) := by
  decide +kernel

/-! ### credential_issuer/mod.rs `test_evaluate_credential_request` -/

/-- `valid_credential_format_profile` (lines 785-818), as text. -/
def profileText : Str := str! "{\"format\": \"jwt_vc_json\",\"id\": \"UniversityDegree_JWT\",\"types\": [\"VerifiableCredential\",\"UniversityDegreeCredential\"],\"credentialSubject\": {\"given_name\": {\"display\": [{\"name\": \"Given Name\",\"locale\": \"en-US\"}]},\"last_name\": {\"display\": [{\"name\": \"Surname\",\"locale\": \"en-US\"}]},\"degree\": {},\"gpa\": {\"display\": [{\"name\": \"GPA\"}]}}}"

/-- `valid_issuer_metadata` and `invalid_issuer_metadata_wrong_credential_issuer`. -/
def metadata (issuer : Str) : Option CredentialIssuerMetadata :=
  CredentialIssuerMetadata.fromJson (str! "{\"credential_issuer\": \"" ++ issuer ++ str! "\",\"credential_endpoint\": \"https://example.org\",\"credentials_supported\": [" ++ profileText ++ str! "]}")

/-- `valid_credential_request`. -/
def request : CredentialRequest :=
  ⟨format1, some ⟨str! "jwt", str! "ewogICJraWQiOiAiZGlkOmtleTp6Nk1rcFRIUjhWTnNCeFlBQVdIdXQyR2VhZGQ5alN3dUJWOHhSb0Fud1dzZHZrdEgjejZNa3BUSFI4Vk5zQnhZQUFXSHV0MkdlYWRkOWpTd3VCVjh4Um9BbndXc2R2a3RIIiwKICAiYWxnIjogIkVkRFNBIiwKICAidHlwIjogIm9wZW5pZDR2Y2ktcHJvb2Yrand0Igp9.eyJpc3MiOiJzNkJoZFJrcXQzIiwiYXVkIjoiaHR0cHM6Ly9zZXJ2ZXIuZXhhbXBsZS5jb20iLCJpYXQiOiIyMDE4LTA5LTE0VDIxOjE5OjEwWiIsIm5vbmNlIjoidFppZ25zbkZicCJ9"⟩⟩

/-- `valid_did_document`. -/
def doc2 : Document Jwk :=
  ⟨str! "did:key:z6MkpTHR8VNsBxYAAWHut2Geadd9jSwuBV8xRoAnwWsdvktH",
    some [.method (str! "did:key:z6MkpTHR8VNsBxYAAWHut2Geadd9jSwuBV8xRoAnwWsdvktH#z6MkpTHR8VNsBxYAAWHut2Geadd9jSwuBV8xRoAnwWsdvktH")
      ⟨some SsiAlg.edDSA,
        .okp ((base64urlDecode (str! "lJZrfAjkBXdfjebMHEUI9usidAPhAlssitLXR3OYxbI")).getD [])⟩],
    some [.reference (str! "did:key:z6MkpTHR8VNsBxYAAWHut2Geadd9jSwuBV8xRoAnwWsdvktH#z6MkpTHR8VNsBxYAAWHut2Geadd9jSwuBV8xRoAnwWsdvktH")],
    some [.reference (str! "did:key:z6MkpTHR8VNsBxYAAWHut2Geadd9jSwuBV8xRoAnwWsdvktH#z6MkpTHR8VNsBxYAAWHut2Geadd9jSwuBV8xRoAnwWsdvktH")],
    none, none, none, none⟩

/-- `valid_credential_offer`. -/
def offer : Option CredentialOffer := do
  let m ← metadata (str! "https://server.example.com")
  let (o, _) ← okOf (CredentialIssuer.createOffer m [.credentialId (str! "UniversityDegree_JWT")]
    (some []) none (some ⟨[], none⟩))
  some o

/-- The options of the tests: nonce, its creation and the client. -/
def options (nonce : Str) (created : Time) (client : Option Str) :
    EvaluateCredentialRequestOptions := ⟨some ⟨1000, nonce, created⟩, client⟩

/-- The time of the tests. -/
def now : Time := 1684000000123456789

/-- A call of `evaluate_credential_request` in the tests. -/
def evaluate (issuer : Str) (o : Option CredentialOffer) (a : Option AuthorizationServerMetadata)
    (d : Option ext.Doc) (op : EvaluateCredentialRequestOptions) :
    Option (CredentialIssuerResult CredentialIssuerEvaluateRequestResponse) :=
  (metadata issuer).map fun m =>
    CredentialIssuer.evaluateCredentialRequest ext now m request o a d (some op)

/-- `https://server.example.com`. -/
def server : Str := str! "https://server.example.com"

/-- should_evaluate_credential_request -/
example : offer.isSome = true ∧
    evaluate server offer none (some doc2) (options (str! "tZignsnFbp") now (some (str! "s6BhdRkqt3"))) =
    some (.ok ⟨some ⟨.EdDSA,
      [148, 150, 107, 124, 8, 228, 5, 119, 95, 141, 230, 204, 28, 69, 8, 246, 235, 34,
       116, 3, 225, 2, 91, 44, 138, 210, 215, 71, 115, 152, 197, 178],
      [123, 34, 116, 121, 112, 34, 58, 34, 111, 112, 101, 110, 105, 100, 52, 118, 99, 105,
       45, 112, 114, 111, 111, 102, 43, 106, 119, 116, 34, 44, 34, 97, 108, 103, 34, 58,
       34, 69, 100, 68, 83, 65, 34, 44, 34, 107, 105, 100, 34, 58, 34, 100, 105, 100, 58,
       107, 101, 121, 58, 122, 54, 77, 107, 112, 84, 72, 82, 56, 86, 78, 115, 66, 120, 89,
       65, 65, 87, 72, 117, 116, 50, 71, 101, 97, 100, 100, 57, 106, 83, 119, 117, 66, 86,
       56, 120, 82, 111, 65, 110, 119, 87, 115, 100, 118, 107, 116, 72, 35, 122, 54, 77,
       107, 112, 84, 72, 82, 56, 86, 78, 115, 66, 120, 89, 65, 65, 87, 72, 117, 116, 50,
       71, 101, 97, 100, 100, 57, 106, 83, 119, 117, 66, 86, 56, 120, 82, 111, 65, 110,
       119, 87, 115, 100, 118, 107, 116, 72, 34, 125, 46, 123, 34, 105, 115, 115, 34, 58,
       34, 115, 54, 66, 104, 100, 82, 107, 113, 116, 51, 34, 44, 34, 97, 117, 100, 34, 58,
       34, 104, 116, 116, 112, 115, 58, 47, 47, 115, 101, 114, 118, 101, 114, 46, 101,
       120, 97, 109, 112, 108, 101, 46, 99, 111, 109, 34, 44, 34, 115, 117, 98, 34, 58,
       110, 117, 108, 108, 44, 34, 105, 97, 116, 34, 58, 34, 50, 48, 49, 56, 45, 48, 57,
       45, 49, 52, 84, 50, 49, 58, 49, 57, 58, 49, 48, 90, 34, 44, 34, 110, 111, 110, 99,
       101, 34, 58, 34, 116, 90, 105, 103, 110, 115, 110, 70, 98, 112, 34, 125],
      [101, 120, 97, 109, 112, 108, 101, 46, 99, 111, 109, 34, 44, 34, 115, 117, 98, 34,
       58, 110, 117, 108, 108, 44, 34, 105, 97, 116, 34, 58, 34, 50, 48, 49, 56, 45, 48,
       57, 45, 49, 52, 84, 50, 49, 58, 49, 57, 58, 49, 48, 90, 34, 44, 34, 110, 111, 110,
       99, 101, 34, 58, 34, 116, 90, 105, 103, 110, 115, 110, 70, 98, 112, 34, 125]⟩,
      some (str! "did:key:z6MkpTHR8VNsBxYAAWHut2Geadd9jSwuBV8xRoAnwWsdvktH"), format1⟩) := by
  decide +kernel

/-- should_not_evaluate_credential_request_without_offer -/
example : evaluate server none none (some doc2)
    (options (str! "tZignsnFbp") now (some (str! "s6BhdRkqt3"))) =
    some (.err .credentialOfferMustBeSupplied) := by decide +kernel

/-- should_not_evaluate_credential_request_with_authorized_server_metadata -/
example : evaluate server offer (some ⟨⟩) (some doc2)
    (options (str! "tZignsnFbp") now (some (str! "s6BhdRkqt3"))) =
    some (.err .authorizationServerMetadataNotSupported) := by decide +kernel

/-- should_not_evaluate_credential_request_without_did_document_when_kid_in_jwk -/
example : evaluate server offer none none
    (options (str! "tZignsnFbp") now (some (str! "s6BhdRkqt3"))) =
    some (.err (.jwtError .noDidDocumentProvidedForKidAsDid)) := by decide +kernel

/-- should_not_evaluate_credential_request_with_nonce_mismatch -/
example : evaluate server offer none (some doc2)
    (options (str! "some_invalid_nonce") now (some (str! "s6BhdRkqt3"))) =
    some (.err (.jwtError (.nonceMismatch (some (str! "some_invalid_nonce"))
      (str! "tZignsnFbp")))) := by decide +kernel

/-- should_not_evaluate_credential_request_with_expired_nonce -/
example : evaluate server offer none (some doc2)
    (options (str! "tZignsnFbp") (now - 100 * 3600 * 1000000000) (some (str! "s6BhdRkqt3"))) =
    some (.err (.cNonceIsExpired now (now - 100 * 3600 * 1000000000 + 1000 * 1000000000))) := by
  decide +kernel

/-- should_evaluate_credential_request_with_when_pre_authorized_code_flow_is_used_and_no_client_id -/
example : ((evaluate server offer none (some doc2) (options (str! "tZignsnFbp") now none)).bind
    okOf).isSome = true := by decide +kernel

/-- should_not_evaluate_credential_request_with_credential_issuer_mismatch_in_metadata_and_proof -/
example : evaluate (str! "some-invalid-id") offer none (some doc2)
    (options (str! "tZignsnFbp") now (some (str! "s6BhdRkqt3"))) =
    some (.err (.jwtError (.audienceMismatch (str! "some-invalid-id") server))) := by
  decide +kernel

/-! ### credential_issuer/mod.rs `test_create_credential_success_response` -/

/-- The profile of the tests. -/
def profile : Option CredentialFormatProfile :=
  CredentialFormatProfile.fromJson profileText

/-- The profile which a response carries: itself, or base64url of its JSON text. -/
def carried : CredentialFormatProfileOrEncoded → Option CredentialFormatProfile
  | .credentialFormatProfile c => some c
  | .encoded e =>
    ((base64urlDecode e).bind Json.parseSlice).bind (CredentialFormatProfile.de false)

/-- should_create_success_response -/
example : profile.isSome = true ∧
    (profile.bind fun c => (okOf (CredentialIssuer.createCredentialSuccessResponse ext now request
      (some (.credential c)) (some ⟨str! "nonce", some 10⟩))).map fun r =>
      decide (r.1.format = str! "ldp_vc" ∧ r.1.credential.bind carried = some c ∧
        r.1.acceptanceToken = none ∧ r.1.cNonce = some (str! "nonce") ∧
        r.1.cNonceExpiresIn = some 10)) = some true := by decide +kernel

/-! ### credential_issuer/error.rs `credential_issuer_error_tests` -/

/-- should_extract_correct_information_for_validation_error. The test asserts the description
`some error`; the code gives the fixed text of validate.rs:9, so that assertion does not hold. -/
example : (CredentialIssuerError.validationError (.any (str! "some error"))).information ext =
    ⟨100, str! "ValidationError", str! "An error occurred during validation, serialization or deserialization",
      some (.obj [(str! "validation_message", .str (str! "some error"))])⟩ := by decide +kernel

/-- should_extract_correct_information_for_authorized_flow_not_supported -/
example : CredentialIssuerError.authorizedFlowNotSupported.information ext =
    ⟨102, str! "AuthorizedFlowNotSupported",
      str! "The Authorized flow is currently not supported", some .null⟩ := by decide +kernel

/-- should_extract_correct_information_for_credential_id_not_in_issuer_metadata -/
example : (CredentialIssuerError.credentialIdNotInIssuerMetadata (str! "cred_id_one")).information
    ext = ⟨103, str! "CredentialIdNotInIssuerMetadata",
      str! "The id `cred_id_one` does not refer to a credential format inside the issuer metadata",
      some (.obj [(str! "id", .str (str! "cred_id_one"))])⟩ := by decide +kernel

/-- should_extract_correct_information_for_invalid_credential_offer_encoding -/
example : (CredentialIssuerError.invalidCredentialOfferEncoding (str! "invalid encoding")).information
    ext = ⟨104, str! "InvalidCredentialOfferEncoding", str! "Could not url-encode the credential",
      some (.obj [(str! "error_message", .str (str! "invalid encoding"))])⟩ := by decide +kernel

/-! ### access_token/mod.rs `test_access_token_evaluate_request` -/

/-- An offer of the tests. -/
def tokenOffer (a : Option AuthorizedCodeFlow) (p : Option PreAuthorizedCodeFlow) :
    Option CredentialOffer := some ⟨str! "me", [], ⟨a, p⟩⟩

/-- should_evaluate_access_token_request -/
example : AccessToken.evaluateAccessTokenRequest ⟨.preAuthorizedCodeFlow (str! "abc") (some 123213)⟩
    (tokenOffer (some ⟨none⟩) (some ⟨str! "abc", some true⟩)) (some ⟨some 123213⟩) = .ok () := by
  decide +kernel

/-- should_not_evaluate_access_token_request_without_credential_offer -/
example : AccessToken.evaluateAccessTokenRequest
    ⟨.preAuthorizedCodeFlow (str! "0123") (some 123213)⟩ none (some ⟨some 123213⟩) =
    .err .credentialOfferMustBeSupplied := by decide +kernel

/-- should_not_evaluate_access_token_request_with_pin_mismatch -/
example : AccessToken.evaluateAccessTokenRequest
    ⟨.preAuthorizedCodeFlow (str! "0123") (some 123213)⟩
    (tokenOffer none (some ⟨str! "abc", some true⟩)) (some ⟨some 111⟩) =
    .err .userPinMismatch := by decide +kernel

/-- should_not_evaluate_access_token_request_with_pre_authorized_code_mismatch -/
example : AccessToken.evaluateAccessTokenRequest
    ⟨.preAuthorizedCodeFlow (str! "0123") (some 123213)⟩
    (tokenOffer none (some ⟨str! "abc", some true⟩)) (some ⟨some 123213⟩) =
    .err (.invalidPreAuthorizedCodeFlowValues true false) := by decide +kernel

/-- should_evaluate_access_token_with_both_grant_types_in_credential_offer -/
example : AccessToken.evaluateAccessTokenRequest ⟨.preAuthorizedCodeFlow (str! "abc") none⟩
    (tokenOffer (some ⟨none⟩) (some ⟨str! "abc", none⟩)) none = .ok () := by decide +kernel

/-- should_evaluate_access_token_with_matching_grant_type_in_credential_offer -/
example : AccessToken.evaluateAccessTokenRequest ⟨.preAuthorizedCodeFlow (str! "abc") (some 123)⟩
    (tokenOffer none (some ⟨str! "abc", some true⟩)) (some ⟨some 123⟩) = .ok () := by decide +kernel

/-- should_not_evaluate_access_token_with_required_pin_but_none_supplied -/
example : AccessToken.evaluateAccessTokenRequest ⟨.preAuthorizedCodeFlow (str! "abc") none⟩
    (tokenOffer none (some ⟨str! "abc", some true⟩)) none =
    .err (.invalidPreAuthorizedCodeFlowValues true true) := by decide +kernel

/-- should_not_evaluate_access_token_request_when_user_pin_is_invalid -/
example : AccessToken.evaluateAccessTokenRequest
    ⟨.preAuthorizedCodeFlow (str! "0123") (some 11111111111)⟩ none none =
    .err (.validationError (.any
      (str! "user pin exeeded length. Maximum is 8, supplied is 10"))) := by decide +kernel

/-- should_not_evaluate_access_token_request_when_authorized_code_flow_is_used -/
example : AccessToken.evaluateAccessTokenRequest ⟨.authorizedCodeFlow⟩ none none =
    .err .authorizedFlowNotSupported := by decide +kernel

/-- should_not_evaluate_access_token_request_when_grant_type_in_offer_does_not_match -/
example : AccessToken.evaluateAccessTokenRequest ⟨.preAuthorizedCodeFlow (str! "abc") none⟩
    (tokenOffer (some ⟨none⟩) none) none =
    .err (.invalidGrantType (str! "pre_authorized_code_flow") [str! "authorized_code_flow"]) := by
  decide +kernel

/-! ### access_token/mod.rs `test_access_token_error_response`, `test_access_token_success_response` -/

/-- error_response -/
example : createAccessTokenErrorResponse .invalidRequest (some (str! "error description"))
    (some (str! "error uri")) none =
    .ok ⟨.invalidRequest, some (str! "error description"), some (str! "error uri"), none⟩ := rfl

/-- success_response -/
example : AccessToken.createAccessTokenSuccessResponse now (str! "Hello") .bearer (some 3600)
    (some (str! "scope")) (some (str! "c_nonce")) (some 3600) (some true) (some 5) =
    .ok (⟨str! "Hello", .bearer, some 3600, some (str! "scope"), some (str! "c_nonce"), some 3600,
      some true, some 5⟩, now) := rfl

/-! ### types/credential.rs `credential_tests` -/

/-- The members which the three documents share: suites, display and subject. -/
def rest (suite : Str) : Str := str! "\"types\": [\"VerifiableCredential\",\"UniversityDegreeCredential\"],\"cryptographic_binding_methods_supported\": [\"did\"],\"cryptographic_suites_supported\": [\"" ++ suite ++ str! "\"],\"display\": [{\"name\": \"University Credential\",\"locale\": \"en-US\",\"logo\": {\"url\": \"https://exampleuniversity.com/public/logo.png\",\"alt_text\": \"a square logo of a university\"},\"background_color\": \"#12107c\",\"text_color\": \"#FFFFFF\"}],\"credentialSubject\": {\"given_name\": {\"display\": [{\"name\": \"Given Name\",\"locale\": \"en-US\"}]},\"last_name\": {\"display\": [{\"name\": \"Surname\",\"locale\": \"en-US\"}]},\"degree\": {},\"gpa\": {\"display\": [{\"name\": \"GPA\"}]}}}"

/-- The profile of a text. -/
def readProfile (s : Str) : Option CredentialFormatProfile :=
  CredentialFormatProfile.fromJson s

/-- should_deserialize_jwt_vc_json_credential_from_json -/
example : (match readProfile (str! "{\"format\": \"jwt_vc_json\",\"id\": \"UniversityDegree_JWT\","
      ++ rest (str! "ES256K")) with
    | some (.jwtVcJson types subject order) =>
      decide (types = [str! "VerifiableCredential", str! "UniversityDegreeCredential"])
        && subject.isSome && order.isNone
    | _ => false) = true := by decide +kernel

/-- should_deserialize_jwt_vc_json_ld_credential_from_json -/
example : (match readProfile (str! "{\"format\": \"jwt_vc_json-ld\",\"id\": \"UniversityDegree_JWT\","
      ++ rest (str! "ES256K")) with
    | some (.jwtVcJsonLd types subject order) =>
      decide (types = [str! "VerifiableCredential", str! "UniversityDegreeCredential"])
        && subject.isSome && order.isNone
    | _ => false) = true := by decide +kernel

/-- should_deserialize_ldp_vc_credential_from_json -/
example : (match readProfile (str! "{\"format\": \"ldp_vc\",\"@context\": [\"https://www.w3.org/2018/credentials/v1\",\"https://www.w3.org/2018/credentials/examples/v1\"],"
      ++ rest (str! "Ed25519Signature2018")) with
    | some (.ldpVc context types subject order) =>
      decide (context = [.string (str! "https://www.w3.org/2018/credentials/v1"),
          .string (str! "https://www.w3.org/2018/credentials/examples/v1")])
        && decide (types = [str! "VerifiableCredential", str! "UniversityDegreeCredential"])
        && subject.isSome && order.isNone
    | _ => false) = true := by decide +kernel

/-! ### base.rs `test_base` -/

/-- should_round_trip_base64_url (and should_round_trip_base64, whose functions are not used) -/
example : ((base64urlDecode (base64urlEncode (utf8Encode (str! "Hello World!")))).bind utf8Decode) =
    some (str! "Hello World!") := by decide +kernel

end Oid4vci.Tests
