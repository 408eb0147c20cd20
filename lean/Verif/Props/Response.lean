import Verif.Spec.Response
import Verif.Spec.Example
import Verif.Props.Evaluate

/-!
Responses: C35 format, C36 credential or acceptance token, C38 nonce lifetimes, C39 and C40 error
codes, C41 error information, C42 return objects, C47 additional details.
-/

namespace Oid4vci

open Spec CredentialIssuer

/-! ### C35, C36, C38: success responses -/

theorem success_eq_ok {x : Ext} {now : Time} {r : CredentialRequest}
    {c : Option CredentialOrAcceptanceToken} {nonce : Option CNonce}
    {resp : CredentialSuccessResponse} {t : Time} :
    createCredentialSuccessResponse x now r c nonce = .ok (resp, t) ↔
      r.validate x = .ok () ∧ t = now ∧ resp.format = formatName r.format ∧
      resp.cNonce = nonce.map (·.cNonce) ∧ resp.cNonceExpiresIn = nonce.bind (·.cNonceExpiresIn) ∧
      match c with
      | none => resp.credential = none ∧ resp.acceptanceToken = none
      | some (.acceptanceToken s) => resp.credential = none ∧ resp.acceptanceToken = some s
      | some (.credential c) => resp.acceptanceToken = none ∧ ∃ e,
          CredentialFormatProfileOrEncoded.tryFrom c = .ok e ∧ resp.credential = some e := by
  have hf : r.format.getFormatName = formatName r.format := by cases r.format <;> rfl
  unfold createCredentialSuccessResponse
  rw [Res.bind_eq_ok]
  simp only [Res.mapErr_eq_ok, hf]
  obtain ⟨f, cr, at', cn, ce⟩ := resp
  cases hv : r.validate x with
  | panic => simp
  | err e => simp
  | ok u =>
    cases nonce <;> (rcases c with _ | ⟨c | t⟩) <;>
      simp only [Res.bind_eq_ok, Res.mapErr_eq_ok, Res.ok.injEq, exists_eq_left', true_and,
        Option.map_none, Option.map_some, Option.bind_none, Option.bind_some, Prod.mk.injEq,
        CredentialSuccessResponse.mk.injEq] <;>
      constructor
    all_goals first
      | (rintro ⟨_, ⟨rfl, rfl, rfl, rfl, rfl⟩, rfl⟩; simp)
      | (rintro ⟨rfl, rfl, rfl, rfl, rfl, rfl⟩; simp)
      | (rintro ⟨_, a, h, ⟨rfl, rfl, rfl, rfl, rfl⟩, rfl⟩
         exact ⟨rfl, rfl, rfl, rfl, rfl, a, h, rfl⟩)
      | (rintro ⟨rfl, rfl, rfl, rfl, rfl, e, h, rfl⟩
         exact ⟨(), e, h, ⟨rfl, rfl, rfl, rfl, rfl⟩, rfl⟩)

/-- C35, full statement. -/
def C35_statement : Prop := ∀ (x : Ext) (now t : Time) (r : CredentialRequest)
  (c : CredentialFormatProfile) (nonce : Option CNonce) (resp : CredentialSuccessResponse),
  createCredentialSuccessResponse x now r (some (.credential c)) nonce = .ok (resp, t) →
  resp.format = formatName c

/-- C35. The format in the response is that of the request, so it is right exactly when the caller
passes a credential of the requested format. Missing: the other calls, which are not rejected. -/
theorem C35_iff_partial (x : Ext) (now t : Time) (r : CredentialRequest)
    (c : CredentialFormatProfile) (nonce : Option CNonce) (resp : CredentialSuccessResponse)
    (h : createCredentialSuccessResponse x now r (some (.credential c)) nonce = .ok (resp, t)) :
    resp.format = formatName r.format ∧
      (resp.format = formatName c ↔ formatName r.format = formatName c) := by
  obtain ⟨-, -, hf, -⟩ := success_eq_ok.1 h
  exact ⟨hf, by rw [hf]⟩

/-- C35 is violated for every valid request and every credential of another format. -/
theorem C35_wrong_format (x : Ext) (now : Time) (r : CredentialRequest)
    (c : CredentialFormatProfile) (nonce : Option CNonce) (hv : r.validate x = .ok ())
    (hne : formatName r.format ≠ formatName c) :
    ∃ resp, createCredentialSuccessResponse x now r (some (.credential c)) nonce = .ok (resp, now) ∧
      resp.credential ≠ none ∧ resp.format ≠ formatName c := by
  obtain ⟨e, he⟩ : ∃ e, CredentialFormatProfileOrEncoded.tryFrom c = .ok e := by
    cases c <;> exact ⟨_, rfl⟩
  exact ⟨⟨formatName r.format, some e, none, nonce.map (·.cNonce), nonce.bind (·.cNonceExpiresIn)⟩,
    success_eq_ok.2 ⟨hv, rfl, rfl, rfl, rfl, rfl, e, he, rfl⟩, by simp, hne⟩

/-- C35 does not hold. -/
theorem C35_refuted : ¬ C35_statement := by
  intro h
  obtain ⟨resp, h1, -, h2⟩ := C35_wrong_format Ex.ext 0 Ex.request Ex.ldp none Ex.request_valid
    (by decide)
  exact h2 (h _ _ _ _ _ _ _ h1)

/-- C36, full statement. -/
def C36_statement : Prop := ∀ (x : Ext) (now t : Time) (r : CredentialRequest)
  (c : Option CredentialOrAcceptanceToken) (nonce : Option CNonce) (resp : CredentialSuccessResponse),
  createCredentialSuccessResponse x now r c nonce = .ok (resp, t) →
  (resp.credential = none ↔ resp.acceptanceToken ≠ none)

/-- C36. Exactly one of the two if the caller supplies one, and never both. Missing: the call without
either, which succeeds. -/
theorem C36_supplied_partial (x : Ext) (now t : Time) (r : CredentialRequest)
    (c : Option CredentialOrAcceptanceToken) (nonce : Option CNonce)
    (resp : CredentialSuccessResponse)
    (h : createCredentialSuccessResponse x now r c nonce = .ok (resp, t)) :
    (c ≠ none → (resp.credential = none ↔ resp.acceptanceToken ≠ none)) ∧
    (resp.credential = none ∨ resp.acceptanceToken = none) ∧
    ∀ s, c = some (.acceptanceToken s) → resp.acceptanceToken = some s := by
  obtain ⟨-, -, -, -, -, h⟩ := success_eq_ok.1 h
  rcases c with _ | ⟨c | s⟩
  · simp only at h; simp [h.1, h.2]
  · simp only at h
    obtain ⟨h1, e, -, h2⟩ := h
    simp [h1, h2]
  · simp only at h; simp [h.1, h.2]

/-- C36 is violated for every valid request: neither is carried when the caller supplies neither. -/
theorem C36_neither (x : Ext) (now : Time) (r : CredentialRequest) (nonce : Option CNonce)
    (hv : r.validate x = .ok ()) :
    ∃ resp, createCredentialSuccessResponse x now r none nonce = .ok (resp, now) ∧
      resp.credential = none ∧ resp.acceptanceToken = none :=
  ⟨⟨formatName r.format, none, none, nonce.map (·.cNonce), nonce.bind (·.cNonceExpiresIn)⟩,
    success_eq_ok.2 ⟨hv, rfl, rfl, rfl, rfl, rfl, rfl⟩, rfl, rfl⟩

/-- C36 does not hold. -/
theorem C36_refuted : ¬ C36_statement := by
  intro h
  obtain ⟨resp, h1, h2, h3⟩ := C36_neither Ex.ext 0 Ex.request none Ex.request_valid
  exact (h _ _ _ _ _ _ _ h1).1 h2 h3

/-- C38, full statement. -/
def C38_statement : Prop :=
  (∀ (x : Ext) (now t : Time) r c nonce (resp : CredentialSuccessResponse),
    createCredentialSuccessResponse x now r c nonce = .ok (resp, t) →
    resp.cNonceExpiresIn ≠ none → resp.cNonce ≠ none) ∧
  (∀ (now t : Time) token type exp scope nonce nexp pending interval
    (resp : AccessTokenSuccessResponse),
    AccessToken.createAccessTokenSuccessResponse now token type exp scope nonce nexp pending interval
      = .ok (resp, t) → resp.cNonceExpiresIn ≠ none → resp.cNonce ≠ none) ∧
  ∀ (resp : AccessTokenSuccessResponse), resp.validate = .ok () ↔
    (resp.cNonceExpiresIn ≠ none → resp.cNonce ≠ none)

/-- C38 for credential responses, which moreover carry exactly the supplied nonce. Missing: access
token responses, which are not validated. -/
theorem C38_credential_partial (x : Ext) (now t : Time) (r : CredentialRequest)
    (c : Option CredentialOrAcceptanceToken) (nonce : Option CNonce)
    (resp : CredentialSuccessResponse)
    (h : createCredentialSuccessResponse x now r c nonce = .ok (resp, t)) :
    (resp.cNonceExpiresIn ≠ none → resp.cNonce ≠ none) ∧
    (∀ n, nonce = some n → resp.cNonce = some n.cNonce ∧ resp.cNonceExpiresIn = n.cNonceExpiresIn) ∧
    (nonce = none → resp.cNonce = none ∧ resp.cNonceExpiresIn = none) := by
  obtain ⟨-, -, -, h1, h2, -⟩ := success_eq_ok.1 h
  rw [h1, h2]
  cases nonce <;> simp

/-- C38. `validate` rejects exactly the responses with a lifetime and no nonce. -/
theorem C38_validate_iff (resp : AccessTokenSuccessResponse) :
    resp.validate = .ok () ↔ (resp.cNonceExpiresIn ≠ none → resp.cNonce ≠ none) := by
  unfold AccessTokenSuccessResponse.validate
  cases resp.cNonce <;> cases resp.cNonceExpiresIn <;> simp

/-- C38 is violated by every call with a lifetime and no nonce. -/
theorem C38_unvalidated (now : Time) (token : Str) (type : AccessTokenType) (exp : Option UInt32)
    (scope : Option Str) (n : UInt32) (pending : Option Bool) (interval : Option UInt32) :
    ∃ resp, AccessToken.createAccessTokenSuccessResponse now token type exp scope none (some n)
      pending interval = .ok (resp, now) ∧ resp.cNonce = none ∧ resp.cNonceExpiresIn = some n ∧
      ∃ e, resp.validate = .err e :=
  ⟨_, rfl, rfl, rfl, _, rfl⟩

/-- C38 does not hold. -/
theorem C38_refuted : ¬ C38_statement := by
  rintro ⟨-, h, -⟩
  obtain ⟨resp, h1, h2, h3, -⟩ := C38_unvalidated 0 [] .bearer none none 60 none none
  exact h _ _ _ _ _ _ _ _ _ _ _ h1 (by simp [h3]) h2

/-- The access token response carries its arguments. -/
theorem C38_carries (now : Time) (token : Str) (type : AccessTokenType) (exp : Option UInt32)
    (scope nonce : Option Str) (nexp : Option UInt32) (pending : Option Bool)
    (interval : Option UInt32) (resp : AccessTokenSuccessResponse) (t : Time)
    (h : AccessToken.createAccessTokenSuccessResponse now token type exp scope nonce nexp pending
      interval = .ok (resp, t)) :
    resp.accessToken = token ∧ resp.tokenType = type ∧ resp.expiresIn = exp ∧ resp.scope = scope ∧
    resp.cNonce = nonce ∧ resp.cNonceExpiresIn = nexp ∧ resp.authorizationPending = pending ∧
    resp.interval = interval ∧ t = now := by
  cases h
  exact ⟨rfl, rfl, rfl, rfl, rfl, rfl, rfl, rfl, rfl⟩

example : ∃ resp, createCredentialSuccessResponse Ex.ext 7 Ex.request (some (.credential Ex.mdoc))
    (some ⟨str! "n", some 60⟩) = .ok (resp, 7) ∧ resp.format = str! "mso_mdoc" ∧
    resp.credential ≠ none ∧ resp.cNonceExpiresIn = some 60 :=
  ⟨⟨str! "mso_mdoc", some (.encoded (base64urlEncode (utf8Encode Ex.mdoc.ser.print))), none,
    some (str! "n"), some 60⟩, success_eq_ok.2 ⟨Ex.request_valid, rfl, rfl, rfl, rfl, rfl, _, rfl, rfl⟩,
    rfl, by simp, rfl⟩

/-! ### C39, C40: codes -/

/-- C39 for access token codes: the strings are the documented ones, and conversion from a string
succeeds exactly on them, with the right code. -/
theorem C39_access_token (c : AccessTokenErrorCode) (s : Str) :
    ((c, s) ∈ accessTokenCodes ↔ c.toStr = s) ∧
    (AccessTokenErrorCode.tryFrom s = .ok c ↔ (c, s) ∈ accessTokenCodes) ∧
    AccessTokenErrorCode.tryFrom c.toStr = .ok c ∧
    ∀ c', c.toStr = c'.toStr → c = c' := by
  have h1 : (c, s) ∈ accessTokenCodes ↔ c.toStr = s := by
    cases c <;> simp [accessTokenCodes, AccessTokenErrorCode.toStr, eq_comm]
  have h3 : ∀ c : AccessTokenErrorCode, AccessTokenErrorCode.tryFrom c.toStr = .ok c := by
    intro c; cases c <;> decide +kernel
  refine ⟨h1, ?_, h3 c, fun c' h => ?_⟩
  · rw [h1]
    constructor
    · intro h
      unfold AccessTokenErrorCode.tryFrom at h
      repeat' split at h
      all_goals first | (cases h; symm; assumption) | cases h
    · rintro rfl; exact h3 c
  · have := h3 c
    rw [h, h3 c'] at this
    exact (Res.ok.inj this).symm

/-- C39 for credential codes. -/
theorem C39_credential (c : CredentialIssuerErrorCode) (s : Str) :
    ((c, s) ∈ credentialCodes ↔ c.toStr = s) ∧
    (CredentialIssuerErrorCode.tryFrom s = .ok c ↔ (c, s) ∈ credentialCodes) ∧
    CredentialIssuerErrorCode.tryFrom c.toStr = .ok c ∧
    ∀ c', c.toStr = c'.toStr → c = c' := by
  have h1 : (c, s) ∈ credentialCodes ↔ c.toStr = s := by
    cases c <;> simp [credentialCodes, CredentialIssuerErrorCode.toStr, eq_comm]
  have h3 : ∀ c : CredentialIssuerErrorCode, CredentialIssuerErrorCode.tryFrom c.toStr = .ok c := by
    intro c; cases c <;> decide +kernel
  refine ⟨h1, ?_, h3 c, fun c' h => ?_⟩
  · rw [h1]
    constructor
    · intro h
      unfold CredentialIssuerErrorCode.tryFrom at h
      repeat' split at h
      all_goals first | (cases h; symm; assumption) | cases h
    · rintro rfl; exact h3 c
  · have := h3 c
    rw [h, h3 c'] at this
    exact (Res.ok.inj this).symm

/-- C39 for token types: only `Bearer`, in this spelling. -/
theorem C39_token_type (c : AccessTokenType) (s : Str) :
    c.toStr = str! "Bearer" ∧ (AccessTokenType.tryFrom s = .ok c ↔ s = str! "Bearer") := by
  cases c
  refine ⟨rfl, ?_⟩
  unfold AccessTokenType.tryFrom
  split <;> simp_all

example : AccessTokenErrorCode.tryFrom (str! "invalid_grant") = .ok .invalidGrant ∧
    ∀ c, AccessTokenErrorCode.tryFrom (str! "InvalidGrant") ≠ .ok c := by
  refine ⟨by decide +kernel, fun c h => ?_⟩
  have := (C39_access_token c _).2.1.1 h
  revert this
  cases c <;> decide +kernel

/-- The members of a serialised error response. -/
theorem errorResponse_members {T : Type} {x : Ext} {f : T → Json} {r : ErrorResponse T} {j : Json}
    (h : r.ser x f = some j) : ∃ ms, flattenDetails x r.errorAdditionalDetails = some ms ∧
      j = .obj ([(str! "error", f r.error),
        (str! "error_description", Serde.serOpt .str r.errorDescription),
        (str! "error_uri", Serde.serOpt .str r.errorUri)] ++ ms) := by
  unfold ErrorResponse.ser at h
  split at h
  · cases h
  · rename_i ms hms
    exact ⟨ms, hms, (Option.some.inj h).symm⟩

theorem errorResponse_first {T : Type} {x : Ext} {f : T → Json} {r : ErrorResponse T} {j : Json}
    (h : r.ser x f = some j) : (members (str! "error") j).head? = some (f r.error) := by
  obtain ⟨ms, -, rfl⟩ := errorResponse_members h
  simp [members]

/-- C40, full statement. -/
def C40_statement : Prop := ∀ (x : Ext),
  (∀ c desc uri details resp j, createAccessTokenErrorResponse c desc uri details = .ok resp →
    resp.ser x AccessTokenErrorCode.ser = some j →
    ∀ s, (c, s) ∈ accessTokenCodes → (members (str! "error") j).head? = some (.str s)) ∧
  ∀ c desc uri details resp j, createCredentialErrorResponse c desc uri details = .ok resp →
    resp.ser x CredentialIssuerErrorCode.ser = some j →
    ∀ s, (c, s) ∈ credentialCodes → (members (str! "error") j).head? = some (.str s)

/-- C40 is violated by every error response: the member is never a documented code string. -/
theorem C40_never_documented (x : Ext) (desc uri : Option Str) (details : Option Json) (j : Json) :
    (∀ c resp, createAccessTokenErrorResponse c desc uri details = .ok resp →
      resp.ser x AccessTokenErrorCode.ser = some j →
      ∀ c' s, (c', s) ∈ accessTokenCodes → (members (str! "error") j).head? ≠ some (.str s)) ∧
    ∀ c resp, createCredentialErrorResponse c desc uri details = .ok resp →
      resp.ser x CredentialIssuerErrorCode.ser = some j →
      ∀ c' s, (c', s) ∈ credentialCodes → (members (str! "error") j).head? ≠ some (.str s) := by
  refine ⟨fun c resp hr hj c' s hs => ?_, fun c resp hr hj c' s hs => ?_⟩
  · cases hr
    rw [errorResponse_first hj]
    rw [(C39_access_token c' s).1] at hs
    subst hs
    simp only
    revert c'
    clear hj
    revert c
    intro c c'
    cases c <;> cases c' <;> decide
  · cases hr
    rw [errorResponse_first hj]
    rw [(C39_credential c' s).1] at hs
    subst hs
    simp only
    revert c'
    clear hj
    revert c
    intro c c'
    cases c <;> cases c' <;> decide

/-- C40 does not hold. -/
theorem C40_refuted : ¬ C40_statement := by
  intro h
  have hm : (AccessTokenErrorCode.invalidRequest, str! "invalid_request") ∈ accessTokenCodes := by
    simp [accessTokenCodes]
  exact (C40_never_documented Ex.ext none none none _).1 .invalidRequest _ rfl rfl _ _ hm
    ((h Ex.ext).1 .invalidRequest none none none _ _ rfl rfl _ hm)

/-- C40, the part that holds: the member is a string, and different codes have different strings.
Missing: that these are the strings of the specifications. -/
theorem C40_distinct_partial (x : Ext) :
    (∀ c desc uri details resp j, createAccessTokenErrorResponse c desc uri details = .ok resp →
      resp.ser x AccessTokenErrorCode.ser = some j →
      ∃ s, (members (str! "error") j).head? = some (.str s) ∧
        ∀ c', AccessTokenErrorCode.ser c' = .str s → c' = c) ∧
    ∀ c desc uri details resp j, createCredentialErrorResponse c desc uri details = .ok resp →
      resp.ser x CredentialIssuerErrorCode.ser = some j →
      ∃ s, (members (str! "error") j).head? = some (.str s) ∧
        ∀ c', CredentialIssuerErrorCode.ser c' = .str s → c' = c := by
  refine ⟨fun c desc uri details resp j hr hj => ?_, fun c desc uri details resp j hr hj => ?_⟩
  · cases hr
    rw [errorResponse_first hj]
    cases c <;> exact ⟨_, rfl, fun c' h => by revert h; cases c' <;> decide⟩
  · cases hr
    rw [errorResponse_first hj]
    cases c <;> exact ⟨_, rfl, fun c' h => by revert h; cases c' <;> decide⟩

/-- C40, what is written instead: the documented code in another spelling (`invalid_request` as
`InvalidRequest`). Missing: the documented spelling. -/
theorem C40_spelling_partial (x : Ext) (desc uri : Option Str) (details : Option Json) (j : Json) :
    (∀ c resp, createAccessTokenErrorResponse c desc uri details = .ok resp →
      resp.ser x AccessTokenErrorCode.ser = some j → ∀ code, (c, code) ∈ accessTokenCodes →
      ∃ s, (members (str! "error") j).head? = some (.str s) ∧ InCamelCase code s) ∧
    ∀ c resp, createCredentialErrorResponse c desc uri details = .ok resp →
      resp.ser x CredentialIssuerErrorCode.ser = some j → ∀ code, (c, code) ∈ credentialCodes →
      ∃ s, (members (str! "error") j).head? = some (.str s) ∧ InCamelCase code s := by
  refine ⟨fun c resp hr hj code hs => ?_, fun c resp hr hj code hs => ?_⟩
  · cases hr
    rw [errorResponse_first hj]
    rw [(C39_access_token c code).1] at hs
    subst hs
    cases c
    · exact ⟨_, rfl, [('i', str! "nvalid"), ('r', str! "equest")], by decide⟩
    · exact ⟨_, rfl, [('i', str! "nvalid"), ('g', str! "rant")], by decide⟩
    · exact ⟨_, rfl, [('i', str! "nvalid"), ('c', str! "lient")], by decide⟩
    · exact ⟨_, rfl, [('a', str! "ccess"), ('d', str! "enied")], by decide⟩
    · exact ⟨_, rfl, [('u', str! "nsupported"), ('r', str! "esponse"), ('t', str! "ype")], by decide⟩
    · exact ⟨_, rfl, [('i', str! "nvalid"), ('s', str! "cope")], by decide⟩
    · exact ⟨_, rfl, [('s', str! "erver"), ('e', str! "rror")], by decide⟩
    · exact ⟨_, rfl, [('t', str! "emporarily"), ('u', str! "navailable")], by decide⟩
  · cases hr
    rw [errorResponse_first hj]
    rw [(C39_credential c code).1] at hs
    subst hs
    cases c
    · exact ⟨_, rfl, [('i', str! "nvalid"), ('r', str! "equest")], by decide⟩
    · exact ⟨_, rfl, [('i', str! "nvalid"), ('t', str! "oken")], by decide⟩
    · exact ⟨_, rfl, [('u', str! "nsupported"), ('c', str! "redential"), ('t', str! "ype")], by decide⟩
    · exact ⟨_, rfl, [('u', str! "nsupported"), ('c', str! "redential"), ('f', str! "ormat")], by decide⟩
    · exact ⟨_, rfl, [('i', str! "nvalid"), ('o', str! "r"), ('m', str! "issing"), ('p', str! "roof")], by decide⟩

/-! ### C47: additional details -/

/-- An optional text in JSON. -/
def Spec.textOrNull : Option Str → Json
  | some s => .str s
  | none => .null

/-- C47. Description and URI are written under their names, as they were given, before any detail; and
every member of the details is kept. -/
theorem C47_members (x : Ext) (desc uri : Option Str) (details : Option Json) (j : Json) :
    (∀ c resp, createAccessTokenErrorResponse c desc uri details = .ok resp →
      resp.ser x AccessTokenErrorCode.ser = some j →
      (members (str! "error_description") j).head? = some (textOrNull desc) ∧
      (members (str! "error_uri") j).head? = some (textOrNull uri) ∧
      ∀ kvs k v, details = some (.obj kvs) → (k, v) ∈ kvs → v ∈ members k j) ∧
    ∀ c resp, createCredentialErrorResponse c desc uri details = .ok resp →
      resp.ser x CredentialIssuerErrorCode.ser = some j →
      (members (str! "error_description") j).head? = some (textOrNull desc) ∧
      (members (str! "error_uri") j).head? = some (textOrNull uri) ∧
      ∀ kvs k v, details = some (.obj kvs) → (k, v) ∈ kvs → v ∈ members k j := by
  have key : ∀ {T : Type} {f : T → Json} {r : ErrorResponse T}, r.ser x f = some j →
      (members (str! "error_description") j).head? = some (textOrNull r.errorDescription) ∧
      (members (str! "error_uri") j).head? = some (textOrNull r.errorUri) ∧
      ∀ kvs k v, r.errorAdditionalDetails = some (.obj kvs) → (k, v) ∈ kvs → v ∈ members k j := by
    intro T f r h
    obtain ⟨ms, hms, rfl⟩ := errorResponse_members h
    have ht : ∀ o : Option Str, Serde.serOpt Json.str o = textOrNull o := fun o => by cases o <;> rfl
    refine ⟨?_, ?_, ?_⟩
    · simp [members, ht]
    · simp [members, ht]
    · intro kvs k v hd hkv
      rw [hd] at hms
      cases hms
      simp only [members, List.mem_map, List.mem_filter]
      exact ⟨(k, v), ⟨List.mem_append.2 (.inr hkv), by simp⟩, rfl⟩
  exact ⟨fun c resp hr hj => by cases hr; exact key hj, fun c resp hr hj => by cases hr; exact key hj⟩

example : ∃ resp j, createCredentialErrorResponse .invalidToken (some (str! "d")) none
      (some (.obj [(str! "k", .bool true)])) = .ok resp ∧
    resp.ser Ex.ext CredentialIssuerErrorCode.ser = some j ∧ members (str! "k") j = [.bool true] :=
  ⟨_, _, rfl, rfl, by decide⟩

/-- C47, full statement (the kind of error code does not matter). -/
def C47_statement : Prop := ∀ (x : Ext) c desc uri details resp,
  createAccessTokenErrorResponse c desc uri details = .ok resp →
  ∃ j, resp.ser x AccessTokenErrorCode.ser = some j ∧ (members (str! "error") j).length = 1

/-- C47. When the response serialises, and how many `error` members it has: one more than the
details. -/
theorem C47_exact {T : Type} (x : Ext) (f : T → Json) (r : ErrorResponse T) :
    ((r.ser x f).isSome ↔ r.errorAdditionalDetails = none ∨
      (∃ kvs, r.errorAdditionalDetails = some (.obj kvs)) ∨
      (r.errorAdditionalDetails = some .null ∧ x.flattenNullOk = true)) ∧
    ∀ j, r.ser x f = some j → (members (str! "error") j).length =
      1 + ((r.errorAdditionalDetails.map (members (str! "error"))).getD []).length := by
  constructor
  · unfold ErrorResponse.ser flattenDetails
    cases r.errorAdditionalDetails with
    | none => simp
    | some d =>
      cases d <;> simp
      split <;> simp_all
  · intro j hj
    obtain ⟨ms, hms, rfl⟩ := errorResponse_members hj
    unfold flattenDetails at hms
    split at hms
    · cases hms; rename_i h; rw [h]; simp [members]
    · cases hms; rename_i h; rw [h]; simp [members]; omega
    · rename_i h; rw [h]
      split at hms
      · cases hms; simp [members]
      · cases hms
    · cases hms

/-- C47 is violated by every object of details with an `error` member, and by every array, string,
number and boolean. -/
theorem C47_overrides (x : Ext) (c : AccessTokenErrorCode) (desc uri : Option Str)
    (kvs : List (Str × Json)) (v : Json) (h : (str! "error", v) ∈ kvs) :
    ∃ resp j, createAccessTokenErrorResponse c desc uri (some (.obj kvs)) = .ok resp ∧
      resp.ser x AccessTokenErrorCode.ser = some j ∧ 2 ≤ (members (str! "error") j).length := by
  refine ⟨_, _, rfl, rfl, ?_⟩
  rw [(C47_exact x AccessTokenErrorCode.ser ⟨c, desc, uri, some (.obj kvs)⟩).2 _ rfl]
  have : 0 < (members (str! "error") (.obj kvs)).length := by
    apply List.length_pos_of_mem (a := v)
    simp only [members, List.mem_map, List.mem_filter]
    exact ⟨_, ⟨h, by simp⟩, rfl⟩
  simp only [Option.map_some, Option.getD_some]
  omega

theorem C47_unserialisable (x : Ext) (c : AccessTokenErrorCode) (desc uri : Option Str) (d : Json)
    (h1 : ∀ kvs, d ≠ .obj kvs) (h2 : d ≠ .null) :
    ∃ resp, createAccessTokenErrorResponse c desc uri (some d) = .ok resp ∧
      resp.ser x AccessTokenErrorCode.ser = none := by
  refine ⟨_, rfl, ?_⟩
  rw [← Option.not_isSome_iff_eq_none, (C47_exact ..).1]
  simp only [reduceCtorEq, Option.some.injEq, false_or, not_or, not_exists, not_and]
  exact ⟨h1, fun h => absurd h h2⟩

/-- C47 does not hold. -/
theorem C47_refuted : ¬ C47_statement := by
  intro h
  obtain ⟨resp, h1, h2⟩ := C47_unserialisable Ex.ext .invalidRequest none none (.str []) (by simp)
    (by simp)
  obtain ⟨j, h3, -⟩ := h _ _ _ _ _ _ h1
  rw [h2] at h3; cases h3

/-- C47 for absent details, and for objects without an `error` member. Missing: other details. -/
theorem C47_object_partial {T : Type} (x : Ext) (f : T → Json) (r : ErrorResponse T)
    (h : ∀ d ∈ r.errorAdditionalDetails, ∃ kvs, d = .obj kvs ∧ ∀ p ∈ kvs, p.1 ≠ str! "error") :
    ∃ j, r.ser x f = some j ∧ members (str! "error") j = [f r.error] := by
  have hs : (r.ser x f).isSome := (C47_exact x f r).1.2 <| by
    cases hd : r.errorAdditionalDetails with
    | none => exact .inl rfl
    | some d =>
      obtain ⟨kvs, rfl, -⟩ := h d hd
      exact .inr (.inl ⟨kvs, rfl⟩)
  obtain ⟨j, hj⟩ := Option.isSome_iff_exists.1 hs
  refine ⟨j, hj, ?_⟩
  have h1 := errorResponse_first hj
  have h2 := (C47_exact x f r).2 j hj
  have h3 : ((r.errorAdditionalDetails.map (members (str! "error"))).getD []).length = 0 := by
    cases hd : r.errorAdditionalDetails with
    | none => rfl
    | some d =>
      obtain ⟨kvs, rfl, hk⟩ := h d hd
      simp only [Option.map_some, Option.getD_some, members, List.length_map, List.length_eq_zero_iff,
        List.filter_eq_nil_iff, decide_eq_true_eq]
      exact hk
  rw [h3] at h2
  cases hm : members (str! "error") j with
  | nil => rw [hm] at h2; simp at h2
  | cons a l =>
    rw [hm] at h1 h2
    simp only [List.head?_cons, Option.some.injEq] at h1
    simp only [List.length_cons] at h2
    rw [h1, List.length_eq_zero_iff.1 (show l.length = 0 by omega)]

example : ∀ d ∈ some (Json.obj [(str! "hint", .str (str! "retry"))]), ∃ kvs, d = .obj kvs ∧
    ∀ p ∈ kvs, p.1 ≠ str! "error" := by
  intro d hd
  cases hd
  exact ⟨_, rfl, by simp⟩

/-! ### C41: error information -/

theorem jwtError_code (e : JwtError) : e.code.toNat = 300 + e.ctorIdx := by cases e <;> rfl
theorem issuerError_code (e : CredentialIssuerError) : e.code.toNat = 100 + e.ctorIdx := by
  cases e <;> rfl
theorem tokenError_code (e : AccessTokenError) :
    e.code.toNat = if e.ctorIdx = 8 then 409 else 400 + e.ctorIdx := by cases e <;> rfl

/-- C41. The numeric code identifies the variant and its enum. -/
theorem C41_code_iff (x : Ext) (a b : AnyError) :
    (a.information x).code = (b.information x).code ↔ SameVariant a b := by
  have hv : ∀ e : ValidationError, e.information.code.toNat = 1 ∧ e.ctorIdx = 0 := by
    intro e; cases e; exact ⟨rfl, rfl⟩
  have hj : ∀ e : JwtError, (e.information x).code.toNat = 300 + e.ctorIdx ∧ e.ctorIdx < 17 := by
    intro e; exact ⟨jwtError_code e, by cases e <;> exact Nat.lt_of_sub_pos (by exact Nat.succ_pos _)⟩
  have hi : ∀ e : CredentialIssuerError, (e.information x).code.toNat = 100 + e.ctorIdx ∧
      e.ctorIdx < 13 := by
    intro e; exact ⟨issuerError_code e, by cases e <;> exact Nat.lt_of_sub_pos (by exact Nat.succ_pos _)⟩
  have ht : ∀ e : AccessTokenError,
      e.information.code.toNat = (if e.ctorIdx = 8 then 409 else 400 + e.ctorIdx) ∧
      e.ctorIdx < 9 := by
    intro e; exact ⟨tokenError_code e, by cases e <;> exact Nat.lt_of_sub_pos (by exact Nat.succ_pos _)⟩
  rw [← UInt32.toNat_inj]
  unfold SameVariant
  cases a with
  | validation e =>
    have h1 := hv e
    cases b with
    | validation f =>
      have h2 := hv f
      have h3 : (AnyError.validation e).ctorIdx = (AnyError.validation f).ctorIdx := rfl
      simp only [AnyError.information, AnyError.variant, h3, true_and]
      omega
    | jwt f =>
      have h2 := hj f
      simp only [AnyError.information, AnyError.variant, AnyError.ctorIdx]
      omega
    | token f =>
      have h2 := ht f
      simp only [AnyError.information, AnyError.variant, AnyError.ctorIdx]
      split at h2 <;> omega
    | issuer f =>
      have h2 := hi f
      simp only [AnyError.information, AnyError.variant, AnyError.ctorIdx]
      omega
  | jwt e =>
    have h1 := hj e
    cases b with
    | validation f =>
      have h2 := hv f
      simp only [AnyError.information, AnyError.variant, AnyError.ctorIdx]
      omega
    | jwt f =>
      have h2 := hj f
      have h3 : (AnyError.jwt e).ctorIdx = (AnyError.jwt f).ctorIdx := rfl
      simp only [AnyError.information, AnyError.variant, h3, true_and]
      omega
    | token f =>
      have h2 := ht f
      simp only [AnyError.information, AnyError.variant, AnyError.ctorIdx]
      split at h2 <;> omega
    | issuer f =>
      have h2 := hi f
      simp only [AnyError.information, AnyError.variant, AnyError.ctorIdx]
      omega
  | token e =>
    have h1 := ht e
    cases b with
    | validation f =>
      have h2 := hv f
      simp only [AnyError.information, AnyError.variant, AnyError.ctorIdx]
      split at h1 <;> omega
    | jwt f =>
      have h2 := hj f
      simp only [AnyError.information, AnyError.variant, AnyError.ctorIdx]
      split at h1 <;> omega
    | token f =>
      have h2 := ht f
      have h3 : (AnyError.token e).ctorIdx = (AnyError.token f).ctorIdx := rfl
      simp only [AnyError.information, AnyError.variant, h3, true_and]
      split at h1 <;> split at h2 <;> omega
    | issuer f =>
      have h2 := hi f
      simp only [AnyError.information, AnyError.variant, AnyError.ctorIdx]
      split at h1 <;> omega
  | issuer e =>
    have h1 := hi e
    cases b with
    | validation f =>
      have h2 := hv f
      simp only [AnyError.information, AnyError.variant, AnyError.ctorIdx]
      omega
    | jwt f =>
      have h2 := hj f
      simp only [AnyError.information, AnyError.variant, AnyError.ctorIdx]
      omega
    | token f =>
      have h2 := ht f
      simp only [AnyError.information, AnyError.variant, AnyError.ctorIdx]
      split at h2 <;> omega
    | issuer f =>
      have h2 := hi f
      have h3 : (AnyError.issuer e).ctorIdx = (AnyError.issuer f).ctorIdx := rfl
      simp only [AnyError.information, AnyError.variant, h3, true_and]
      omega

/-- C41. The name is that of the variant. -/
theorem C41_name (x : Ext) (a : AnyError) :
    (variantNames a)[a.variant]? = some (a.information x).name := by
  cases a with
  | validation e => cases e; rfl
  | jwt e => cases e <;> rfl
  | token e => cases e <;> rfl
  | issuer e => cases e <;> rfl

example : ¬ SameVariant (.jwt .noKeyFoundInProof) (.issuer .noProofInCredentialRequest) ∧
    SameVariant (.jwt (.signatureNotInJwt [])) (.jwt (.signatureNotInJwt (str! "a"))) :=
  ⟨fun h => absurd h.1 (by decide), rfl, rfl⟩

/-! ### C42: return objects -/

/-- C42. A converted result. -/
theorem C42_exactly_one {ε T : Type} (information : ε → ErrorInformation) (r : Except ε T) :
    (∀ t, r = .ok t → (toReturnObject information r).info = some t ∧
      (toReturnObject information r).error = none) ∧
    (∀ e, r = .error e → (toReturnObject information r).info = none ∧
      (toReturnObject information r).error = some (information e)) ∧
    (toReturnObject information r).warnings = none := by
  cases r <;> refine ⟨?_, ?_, rfl⟩ <;> rintro _ ⟨⟩ <;> exact ⟨rfl, rfl⟩

/-- C42. The document of an object: `info`, `error` and `warnings` with these values, each only if present,
and nothing else. -/
theorem C42_document {T E W : Type} (fT : T → Json) (fE : E → Json) (fW : W → Json) (o : ReturnObject T E W) :
    members (str! "info") (o.ser fT fE fW) = (o.info.map fT).toList ∧
    members (str! "error") (o.ser fT fE fW) = (o.error.map fE).toList ∧
    members (str! "warnings") (o.ser fT fE fW) = (o.warnings.map fun ws => Json.arr (ws.map fW)).toList ∧
    ∀ k, k ∉ [str! "info", str! "error", str! "warnings"] → members k (o.ser fT fE fW) = [] := by
  obtain ⟨i, e, w⟩ := o
  refine ⟨?_, ?_, ?_, fun k hk => ?_⟩
  · cases i <;> cases e <;> cases w <;> rfl
  · cases i <;> cases e <;> cases w <;> rfl
  · cases i <;> cases e <;> cases w <;> rfl
  · simp only [List.mem_cons, List.not_mem_nil, or_false, not_or] at hk
    have h1 := Ne.symm hk.1
    have h2 := Ne.symm hk.2.1
    have h3 := Ne.symm hk.2.2
    cases i <;> cases e <;> cases w <;> simp [members, ReturnObject.ser, Serde.skipNone, h1, h2, h3]

/-- C42. A sequence of warnings, added to any object. -/
theorem C42_warnings {T E W : Type} (o : ReturnObject T E W) (ws : List W) :
    (ws.foldl ReturnObject.addWarning o).info = o.info ∧
    (ws.foldl ReturnObject.addWarning o).error = o.error ∧
    (ws ≠ [] → (ws.foldl ReturnObject.addWarning o).warnings = some (o.warnings.getD [] ++ ws)) := by
  induction ws generalizing o with
  | nil => simp
  | cons w ws ih =>
    obtain ⟨h1, h2, h3⟩ := ih (o.addWarning w)
    refine ⟨h1, h2, fun _ => ?_⟩
    cases ws with
    | nil => simp [ReturnObject.addWarning]
    | cons v vs =>
      simp only [List.foldl_cons] at h3 ⊢
      rw [h3 (by simp)]
      simp [ReturnObject.addWarning]

example : ([str! "a", str! "b"].foldl ReturnObject.addWarning
    (toReturnObject (ValidationError.information) (.ok 1))).warnings
    = some [str! "a", str! "b"] :=
  (C42_warnings _ _).2.2 (by simp)

/-- The error object of C47, with its own `error` member. -/
example : ∃ resp j, createAccessTokenErrorResponse .invalidGrant none none
      (some (.obj [(str! "hint", .null), (str! "error", .str (str! "x"))])) = .ok resp ∧
    resp.ser Ex.ext AccessTokenErrorCode.ser = some j ∧ 2 ≤ (members (str! "error") j).length :=
  C47_overrides Ex.ext .invalidGrant none none _ (.str (str! "x")) (by simp)

end Oid4vci
