import Verif.Lemmas.ReadingShort
import Verif.Model.Debug
import Verif.Model.TimeError
import Verif.Props.Engine
import Verif.Props.Unreadable
import Verif.Props.Report
import Verif.Props.Codec

/-!
Replies are no longer than what was sent allows (C137).
-/

namespace Oid4vci

open Spec Reading CredentialIssuer

theorem debugChar_length (plain : Char → Bool) (c : Char) : (Debug.char plain c).length ≤ 10 := by
  have h : (Nat.toDigits 16 c.toNat).length ≤ 6 := by
    have : c.toNat < 16 ^ 6 := by
      have := c.valid
      rcases this with h | h
      · have : c.toNat < 0xd800 := h
        omega
      · have : c.toNat < 0x110000 := h.2
        omega
    exact (Nat.length_toDigits_le_iff (by decide) (by decide)).2 this
  unfold Debug.char
  repeat' split
  all_goals simp
  omega

theorem flatMap_length {f : Char → Str} {k : Nat} (h : ∀ c, (f c).length ≤ k) (s : Str) :
    (s.flatMap f).length ≤ k * s.length := by
  induction s with
  | nil => simp
  | cons c s ih =>
    have := h c
    simp only [List.flatMap_cons, List.length_append, List.length_cons, Nat.mul_succ]
    omega

theorem debug_length (plain : Char → Bool) (s : Str) : (Debug.string plain s).length ≤ 10 * s.length + 2 := by
  have := flatMap_length (debugChar_length plain) s
  simp only [Debug.string, List.length_append, List.length_cons, List.length_nil]
  omega

theorem modest_texts {T : Texts} (h : T.timeExpected.length ≤ 200) (plain : Char → Bool) :
    Modest ((withTimes T).withDebug plain) where
  debug := debug_length plain
  time s := by
    show (((Chrono.parseError s).map Chrono.ParseError.text).getD []).length ≤ 200
    cases Chrono.parseError s with
    | none => simp
    | some e => cases e <;> decide
  timeExpected := h

/-- C137: the report of an unreadable header. -/
theorem C137_header {T : Texts} (hT : T.timeExpected.length ≤ 200) (plain : Char → Bool) {b : Bytes} {text : Str}
    (h : headerReport ((withTimes T).withDebug plain) b = some text) : text.length ≤ 11 * b.length + 4100 :=
  report_length (brief_header (modest_texts hT plain)) h

/-- C137: the report of an unreadable body. -/
theorem C137_body (x : Ext) {T : Texts} (hT : T.timeExpected.length ≤ 200) (plain : Char → Bool) {b : Bytes} {text : Str}
    (h : bodyReport x ((withTimes T).withDebug plain) b = some text) : text.length ≤ 11 * b.length + 4100 :=
  report_length (brief_body (modest_texts hT plain) x) h

namespace Ex

/-- The texts of the examples; printable are the characters of ASCII. -/
def shortTexts : Texts := (withTimes texts).withDebug fun c => c.toNat < 127

/-- A long report for a short body: a number is written out. -/
example : ∃ text, bodyReport ext shortTexts (utf8Encode (str! "{\"aud\":1e300}")) = some text ∧ 300 < text.length ∧
    text.length ≤ 11 * 13 + 4100 := by
  have h : ((bodyReport ext shortTexts (utf8Encode (str! "{\"aud\":1e300}"))).map fun t => decide (300 < t.length)) =
      some true := by decide +kernel
  obtain ⟨text, ht, hl⟩ := Option.map_eq_some_iff.1 h
  exact ⟨text, ht, of_decide_eq_true hl, C137_body ext (T := texts) (by decide) _ ht⟩

/-- Quoting makes six characters of two octets. -/
example : (headerReport shortTexts (utf8Encode ('"' :: (List.replicate 100 '\x80' ++ ['"'])))).any
    (fun t => decide (600 < t.length)) = true := by decide +kernel

end Ex

theorem printNat_length (n : Nat) : (Json.printInt (n : Int)).length ≤ n + 1 := natDigits_le n

theorem fault_length {alphabet : Str} {padded : Bool} {s : Bytes} {e : Base64.DecodeError}
    (h : DecodeFault alphabet padded s e) : e.message.length ≤ s.length + 300 := by
  have hb : ∀ b : UInt8, (Json.printInt (b.toNat : Int)).length ≤ 256 := fun b => by
    have := printNat_length b.toNat
    have := b.toNat_lt
    omega
  cases h with
  | length _ _ => simp [Base64.DecodeError.message]
  | lastByte b _ _ _ _ =>
    have := hb b
    have := printNat_length (s.length - 1)
    simp only [Base64.DecodeError.message, List.length_append, List.length_cons, List.length_nil]
    omega
  | foreign before b after _ hs _ _ _ =>
    have := hb b
    have := printNat_length before.length
    have := congrArg List.length hs
    simp only [Base64.DecodeError.message, List.length_append, List.length_cons, List.length_nil] at *
    omega
  | padding _ _ _ _ _ _ _ => simp [Base64.DecodeError.message]
  | trailing before d k _ hs _ _ _ _ =>
    have := hb (symbol alphabet d)
    have := printNat_length before.length
    have := congrArg List.length hs
    simp only [Base64.DecodeError.message, List.length_append, List.length_cons, List.length_nil] at *
    omega

theorem base64Msg_length (x : Ext) (s : Str) : ((withBase64 x).base64Msg s).length ≤ (utf8Encode s).length + 300 := by
  show (match Base64.urlEngine s with | .err e => e.message | _ => []).length ≤ _
  split
  · rename_i e h
    exact fault_length ((C114_url_reported s e).1 h)
  · simp

theorem decoded_length {s : Str} {b : Bytes} (h : base64urlDecode s = some b) : b.length ≤ s.length := by
  obtain ⟨ds, pad, _, hs, hl, _⟩ := (C44_base64url_rfc4648 b s).1.1 h
  have : s.length = ds.length := by rw [hs, List.length_map]
  omega

theorem utf8_append_length (s t : Str) : (utf8Encode (s ++ t)).length = (utf8Encode s).length + (utf8Encode t).length := by
  rw [utf8Encode_append, List.length_append]

theorem segment_length {s header body : Str} {rest : List Str} (h : splitOn '.' s = header :: body :: rest) :
    (utf8Encode header).length ≤ (utf8Encode s).length ∧ (utf8Encode body).length ≤ (utf8Encode s).length := by
  have hj := joinWith_splitOn '.' s
  rw [h] at hj
  have h1 : joinWith '.' (header :: body :: rest) = header ++ ('.' :: []) ++ joinWith '.' (body :: rest) := by
    simp [joinWith]
  have h2 : ∃ t, joinWith '.' (body :: rest) = body ++ t := by
    cases rest with
    | nil => exact ⟨[], by simp [joinWith]⟩
    | cons r rest => exact ⟨_, by simp [joinWith]; rfl⟩
  obtain ⟨t, ht⟩ := h2
  rw [← hj, h1, ht]
  simp only [utf8_append_length]
  omega

/-- C137: the message for a text that is no key proof. -/
theorem C137_jwt (x : Ext) {T : Texts} (hT : T.timeExpected.length ≤ 200) (plain : Char → Bool) {s m : Str}
    (h : ProofJwt.fromStr (withJson (withBase64 x) ((withTimes T).withDebug plain)) s = .err (.any m)) :
    m.length ≤ 11 * (utf8Encode s).length + 4100 := by
  unfold ProofJwt.fromStr at h
  split at h
  · cases h; simp
  · cases h; simp
  · rename_i header body rest hs
    obtain ⟨h1, h2⟩ := segment_length hs
    have u1 := utf8_length header
    have u2 := utf8_length body
    simp only at h
    split at h
    · cases h
      have := base64Msg_length x header
      show ((withBase64 x).base64Msg header).length ≤ _
      omega
    · rename_i hb e1
      have d1 := decoded_length e1
      split at h
      · cases h
        have := base64Msg_length x body
        show ((withBase64 x).base64Msg body).length ≤ _
        omega
      · rename_i bb e2
        have d2 := decoded_length e2
        split at h
        · cases h
          show ((headerReport ((withTimes T).withDebug plain) hb).getD []).length ≤ _
          cases hr : headerReport ((withTimes T).withDebug plain) hb with
          | none => simp
          | some text =>
            have := C137_header hT plain hr
            show text.length ≤ _
            omega
        · split at h
          · cases h
            show ((bodyReport (withBase64 x) ((withTimes T).withDebug plain) bb).getD []).length ≤ _
            cases hr : bodyReport (withBase64 x) ((withTimes T).withDebug plain) bb with
            | none => simp
            | some text =>
              have := C137_body (withBase64 x) hT plain hr
              show text.length ≤ _
              omega
          · cases h

/-- A text with a dot that is no base64url, and its message. -/
example : ProofJwt.fromStr (withJson (withBase64 Ex.ext) Ex.shortTexts) (str! "e30.e.") =
    .err (.any (str! "Encoded text cannot have a 6-bit remainder.")) := by decide +kernel
example : (str! "Encoded text cannot have a 6-bit remainder.").length ≤ 11 * 6 + 4100 :=
  C137_jwt (s := str! "e30.e.") Ex.ext (T := Ex.texts) (by decide) (fun c => c.toNat < 127) (by decide +kernel)

theorem escape_length (c : Char) : (Json.escapeChar c).length ≤ 6 := by
  unfold Json.escapeChar
  repeat' split
  all_goals simp

theorem printStr_length (s : Str) : (Json.printStr s).length ≤ 6 * s.length + 2 := by
  have := flatMap_length escape_length s
  simp only [Json.printStr, List.length_append, List.length_cons, List.length_nil]
  omega

theorem validation_display (x : Ext) (m : Str) :
    ((CredentialIssuerError.validationError (.any m)).information x).display.length ≤ 6 * m.length + 300 := by
  have h1 := printStr_length m
  have h2 : ∀ k : Str, (Json.printStr k).length ≤ 6 * k.length + 2 := printStr_length
  have h3 : (Json.printStr (str! "name") ++ Json.printStr (str! "code") ++ Json.printStr (str! "description") ++
    Json.printStr (str! "ValidationError") ++ Json.printStr (str! "validation_message") ++
    Json.printStr (str! "additional_information") ++
    Json.printStr (str! "An error occurred during validation, serialization or deserialization") ++
    Json.printInt 100).length ≤ 200 := by decide +kernel
  simp only [List.length_append] at h3
  have h4 : ((CredentialIssuerError.validationError (.any m)).information x).ser = .obj [(str! "code", .num 100),
      (str! "name", .str (str! "ValidationError")), (str! "description",
        .str (str! "An error occurred during validation, serialization or deserialization")),
      (str! "additional_information", .obj [(str! "validation_message", .str m)])] := by
    simp [CredentialIssuerError.information, ErrorInformation.new, ErrorInformation.ser, CredentialIssuerError.code,
      CredentialIssuerError.name, CredentialIssuerError.description, ValidationError.description, Serde.skipNone,
      CredentialIssuerError.ser, ValidationError.ser, Serde.value, Serde.valueEntries, Serde.binsert]
  rw [ErrorInformation.display, h4]
  simp only [Json.print, Json.printMembers, List.length_append, List.length_cons, List.length_nil]
  omega

/-- C137: the reply to a credential request whose proof cannot be read. -/
theorem C137_reply (x : Ext) {T : Texts} (hT : T.timeExpected.length ≤ 200) (plain : Char → Bool) (now : Time)
    (m : CredentialIssuerMetadata) (r : CredentialRequest) (offer : Option CredentialOffer)
    (asm : Option AuthorizationServerMetadata) (doc : Option x.Doc) (options : Option EvaluateCredentialRequestOptions)
    {p : CredentialRequestProof} (hp : r.proof = some p) {e : ValidationError}
    (h : evaluateCredentialRequest (withJson (withBase64 x) ((withTimes T).withDebug plain)) now m r offer asm doc options =
      .err (.validationError e)) :
    ((CredentialIssuerError.validationError e).information x).display.length ≤ 66 * (utf8Encode p.jwt).length + 25000 := by
  obtain ⟨t⟩ := e
  have hd := validation_display x t
  have : t.length ≤ 11 * (utf8Encode p.jwt).length + 4100 := by
    generalize he : CredentialIssuerError.validationError (.any t) = e' at h
    cases (C60_evaluate_errors (withJson (withBase64 x) ((withTimes T).withDebug plain)) now m r offer asm doc options _).1 h with
    | malformed p' e'' _ _ hp' hf =>
      cases he
      rw [hp] at hp'
      cases hp'
      exact C137_jwt x hT plain hf
    | ids _ => cases he; simp
    | typ _ _ _ _ _ => cases he; simp
    | _ => cases he
  omega

/-- A request with such a proof is rejected, and the reply is short. -/
example : ((CredentialIssuerError.validationError (.any (str! "Encoded text cannot have a 6-bit remainder."))).information
    Ex.ext).display.length ≤ 66 * 6 + 25000 :=
  C137_reply Ex.ext (T := Ex.texts) (by decide) (fun c => c.toNat < 127) 1000 Ex.metadata
    ⟨Ex.mdoc, some ⟨str! "jwt", str! "e30.e."⟩⟩ (some Ex.pinOffer) none none none rfl (by decide +kernel)

/-- The errors of a pre-authorized code. -/
def preErrors : List AccessTokenError := [.userPinMismatch,
    .optionsAreRequiredForEvaluation (str! "user_pin was supplied in the access token request"),
    .invalidPreAuthorizedCodeFlowValues false false, .invalidPreAuthorizedCodeFlowValues false true,
    .invalidPreAuthorizedCodeFlowValues true false, .invalidPreAuthorizedCodeFlowValues true true]

/-- The errors of the token endpoint. -/
def tokenErrors : List AccessTokenError :=
  [.authorizedFlowNotSupported, .noFlowSupportedInCredentialOffer, .credentialOfferMustBeSupplied,
    .invalidGrantType (str! "pre_authorized_code_flow") [str! "authorized_code_flow"]] ++ preErrors ++
    preErrors.map (.invalidAuthorizedAndPreAuthorizedCodeFlow
      (.invalidGrantType (str! "pre_authorized_code_flow") [str! "authorized_code_flow"])) ++
    (List.range 21).map fun n => .validationError (.any (str! "user pin exeeded length. Maximum is " ++ Json.natDigits 8
          ++ str! ", supplied is " ++ Json.natDigits n))

theorem ilog10Aux_le : ∀ fuel n, ilog10Aux fuel n ≤ fuel
  | 0, _ => Nat.le_refl _
  | fuel + 1, n => by
    rw [ilog10Aux]
    have := ilog10Aux_le fuel (n / 10)
    split <;> omega

theorem pre_errors (options : Option EvaluateAccessTokenRequestOptions) (p : PreAuthorizedCodeFlow) (code : Str)
    (pin : Option UInt64) {e : AccessTokenError}
    (h : AccessToken.validatePreAuthorizedCodeFlow options p (.preAuthorizedCodeFlow code pin) = .err e) : e ∈ preErrors := by
  have hv : ∀ a b, AccessTokenError.invalidPreAuthorizedCodeFlowValues a b ∈ preErrors := by
    intro a b; cases a <;> cases b <;> simp [preErrors]
  unfold AccessToken.validatePreAuthorizedCodeFlow at h
  simp only at h
  cases pin with
  | none =>
    rcases Res.bind_eq_err.1 h with h | ⟨_, -, h⟩
    · cases h
    · split at h
      · cases h
      · cases h; exact hv _ _
  | some n =>
    rcases Res.bind_eq_err.1 h with h | ⟨_, -, h⟩
    · cases he : options.bind (·.expectedUserPin) with
      | none => rw [he] at h; cases h; simp [preErrors]
      | some _ => rw [he] at h; cases h
    · split at h
      · cases h; simp [preErrors]
      · rcases Res.bind_eq_err.1 h with h | ⟨_, -, h⟩
        · cases h
        · split at h
          · cases h
          · cases h; exact hv _ _

theorem token_error_mem (r : AccessTokenRequest) (offer : Option CredentialOffer)
    (options : Option EvaluateAccessTokenRequestOptions) {e : AccessTokenError}
    (h : AccessToken.evaluateAccessTokenRequest r offer options = .err e) : e ∈ tokenErrors := by
  unfold AccessToken.evaluateAccessTokenRequest at h
  obtain ⟨g⟩ := r
  rcases Res.bind_eq_err.1 h with h | ⟨_, -, h⟩
  · obtain ⟨v, hv, rfl⟩ := Res.mapErr_eq_err.1 h
    unfold AccessTokenRequest.validate at hv
    rcases Res.bind_eq_err.1 hv with hv | ⟨_, -, hv⟩
    · cases g with
      | authorizedCodeFlow => cases hv
      | preAuthorizedCodeFlow code pin =>
        cases pin with
        | none => cases hv
        | some n =>
          simp only [GrantType.validate] at hv
          split at hv
          · cases hv
            have : (checkedIlog10 n).getD 0 < 21 := by
              unfold checkedIlog10
              have := ilog10Aux_le 20 n.toNat
              split
              · simp
              · simp only [Option.getD_some]; omega
            refine List.mem_append_right _ (List.mem_map.2 ⟨_, List.mem_range.2 this, rfl⟩)
          · cases hv
    · cases hv
  · cases g with
    | authorizedCodeFlow => cases h; simp [tokenErrors]
    | preAuthorizedCodeFlow code pin =>
      simp only [reduceCtorEq, if_false] at h
      cases offer with
      | none => cases h; simp [tokenErrors]
      | some o =>
        simp only at h
        have hin : ∀ {e}, e ∈ preErrors → e ∈ tokenErrors := fun h => by
          unfold tokenErrors
          exact List.mem_append_left _ (List.mem_append_left _ (List.mem_append_right _ h))
        split at h
        · cases h; simp [tokenErrors]
        · exact hin (pre_errors _ _ _ _ h)
        · cases h; simp [tokenErrors]
        · split at h
          · rename_i ae pe ha hp
            cases h
            cases ha
            unfold tokenErrors
            exact List.mem_append_left _ (List.mem_append_right _ (List.mem_map_of_mem (pre_errors _ _ _ _ hp)))
          · cases h

theorem token_displays : ∀ e ∈ tokenErrors, e.information.display.length ≤ 400 := by decide +kernel

/-- C137: the reply to a rejected access token request, whatever was sent and is known. -/
theorem C137_token (r : AccessTokenRequest) (offer : Option CredentialOffer)
    (options : Option EvaluateAccessTokenRequestOptions) {e : AccessTokenError}
    (h : AccessToken.evaluateAccessTokenRequest r offer options = .err e) : e.information.display.length ≤ 400 :=
  token_displays e (token_error_mem r offer options h)

/-- A code and a pin of any length: the reply has none of it. -/
example : ∃ e, AccessToken.evaluateAccessTokenRequest ⟨.preAuthorizedCodeFlow (List.replicate 5000 'x') none⟩ (some Ex.pinOffer)
    none = .err e ∧ e.information.display.length ≤ 400 := by
  have h : AccessToken.evaluateAccessTokenRequest ⟨.preAuthorizedCodeFlow (List.replicate 5000 'x') none⟩ (some Ex.pinOffer)
    none = .err (.invalidPreAuthorizedCodeFlowValues true false) := by decide +kernel
  exact ⟨_, h, C137_token _ _ _ h⟩

end Oid4vci
