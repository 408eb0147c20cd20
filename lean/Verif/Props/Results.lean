import Verif.Spec.Results
import Verif.Props.Options

/-!
C71: the texts of results determine the outcome. C72: conversions into lists of credentials.
-/

namespace Oid4vci

open Spec Serde CredentialIssuer

/-! ### Numbers in normalised documents -/

theorem plain_binsert (m : List (Str × Json)) (k : Str) (v : Json) (hm : PlainNumbersMembers m)
    (hv : PlainNumbers v) : PlainNumbersMembers (binsert m k v) := by
  induction m with
  | nil => exact ⟨hv, trivial⟩
  | cons p m ih =>
    obtain ⟨k', v'⟩ := p
    unfold binsert
    split
    · exact ⟨hv, hm.2⟩
    split
    · exact ⟨hv, hm⟩
    · exact ⟨hm.1, ih hm.2⟩

mutual
theorem plain_value (j : Json) (h : PlainNumbers j) : PlainNumbers (value j) := by
  cases j with
  | arr xs => exact plain_valueList xs h
  | obj kvs => exact plain_valueEntries [] kvs trivial h
  | _ => exact h
theorem plain_valueList (xs : List Json) (h : PlainNumbersList xs) : PlainNumbersList (valueList xs) := by
  cases xs with
  | nil => trivial
  | cons x xs => exact ⟨plain_value x h.1, plain_valueList xs h.2⟩
theorem plain_valueEntries (acc kvs : List (Str × Json)) (ha : PlainNumbersMembers acc)
    (h : PlainNumbersMembers kvs) : PlainNumbersMembers (valueEntries acc kvs) := by
  cases kvs with
  | nil => exact ha
  | cons p kvs =>
    obtain ⟨k, j⟩ := p
    exact plain_valueEntries _ kvs (plain_binsert _ _ _ ha (plain_value j h.1)) h.2
end

theorem fits_bytes (n : Nat) (b : Bytes) : Fits (n + 1) (serBytes b) :=
  fits_serVec _ fun u _ => by
    have := u.toNat_lt
    simp only [Fits, PlainNumbers, depth]
    omega

theorem plain_validationError (e : ValidationError) : PlainNumbers e.ser := by
  cases e; simp [ValidationError.ser, PlainNumbers, PlainNumbersMembers]

theorem plain_optStr (o : Option Str) : PlainNumbers (serOpt .str o) := by cases o <;> trivial

theorem plain_jwtError (x : Ext) (e : JwtError) : PlainNumbers (e.ser x) := by
  cases e with
  | validationError e => exact plain_validationError e
  | eSXXXHasNoXOrYCoordinate a px py =>
    exact ⟨trivial, (fits_serOpt (n := 1) px fun b _ => fits_bytes 0 b).1,
      (fits_serOpt (n := 1) py fun b _ => fits_bytes 0 b).1, trivial⟩
  | _ => simp [JwtError.ser, PlainNumbers, PlainNumbersMembers, plain_optStr]

theorem plain_tokenError (e : AccessTokenError) : PlainNumbers e.ser := by
  induction e with
  | validationError e => exact plain_validationError e
  | invalidGrantType r a => exact ⟨trivial, (fits_strs 0 a).1, trivial⟩
  | invalidAuthorizedAndPreAuthorizedCodeFlow a p iha ihp => exact ⟨iha, ihp, trivial⟩
  | _ => simp [AccessTokenError.ser, PlainNumbers, PlainNumbersMembers]

theorem plain_issuerError (x : Ext) (e : CredentialIssuerError)
    (hn : ∀ c cs, e ≠ .invalidRequestedCredential c cs) : PlainNumbers (e.ser x) := by
  cases e with
  | validationError e => exact plain_validationError e
  | jwtError e => exact plain_jwtError x e
  | invalidRequestedCredential c cs => exact absurd rfl (hn c cs)
  | expiredCNonce n e => exact ⟨trivial, by cases e <;> trivial, trivial⟩
  | _ => simp [CredentialIssuerError.ser, PlainNumbers, PlainNumbersMembers]

/-! ### C71 -/

/-- The details are written with numbers that fit. -/
def ErrorInformation.Numbers (i : ErrorInformation) : Prop := ∀ j ∈ i.additionalInformation, RustNumbers j

theorem rust_information (i : ErrorInformation) (h : i.Numbers) : RustNumbers i.ser := by
  have hc : RustNumbers (.num (i.code.toNat : Int)) := (fits_u32 0 i.code).rust
  cases ha : i.additionalInformation with
  | none => simp [ErrorInformation.ser, ha, skipNone, RustNumbers, RustNumbersMembers] at hc ⊢; exact hc
  | some j =>
    simp [ErrorInformation.ser, ha, skipNone, RustNumbers, RustNumbersMembers] at hc ⊢
    exact ⟨hc, h j ha⟩

theorem information_ser_inj (i i' : ErrorInformation) (h : i.ser = i'.ser) : i = i' := by
  obtain ⟨c, n, d, a⟩ := i
  obtain ⟨c', n', d', a'⟩ := i'
  have hc : ∀ {a b : UInt32}, Json.num (a.toNat : Int) = Json.num (b.toNat : Int) → a = b := fun h =>
    UInt32.toNat_inj.1 (Int.ofNat.inj (Json.num.inj h))
  cases a <;> cases a' <;>
    simp only [ErrorInformation.ser, skipNone, List.cons_append, List.nil_append, Json.obj.injEq,
      List.cons.injEq, Prod.mk.injEq, true_and, Json.str.injEq, and_true, id, reduceCtorEq,
      and_false, List.append_nil] at h
  · obtain ⟨h1, rfl, rfl⟩ := h; rw [hc h1]
  · obtain ⟨h1, rfl, rfl, rfl⟩ := h; rw [hc h1]

/-- C71. The text of a report determines the report: code, name, description and details. -/
theorem C71_report (i i' : ErrorInformation) (hi : i.Numbers) (hi' : i'.Numbers)
    (h : i.display = i'.display) : i = i' :=
  information_ser_inj i i' (Json.print_injective _ _ (rust_information i hi) (rust_information i' hi') h)

theorem rust_object {T : Type} {P : T → Prop} {fT : T → Json} (hf : Faithful P fT)
    (r : ReturnObject T ErrorInformation Str) (h1 : ∀ t ∈ r.info, P t) (h2 : ∀ i ∈ r.error, i.Numbers) :
    RustNumbers (r.ser fT ErrorInformation.ser Json.str) := by
  obtain ⟨info, error, warnings⟩ := r
  cases info <;> cases error <;> cases warnings <;>
    simp [ReturnObject.ser, skipNone, RustNumbers, RustNumbersMembers] at h1 h2 ⊢ <;>
    first
    | exact (fits_strs 0 _).rust
    | exact rust_information _ h2
    | exact ⟨rust_information _ h2, (fits_strs 0 _).rust⟩
    | exact hf.1 _ h1
    | exact ⟨hf.1 _ h1, (fits_strs 0 _).rust⟩
    | exact ⟨hf.1 _ h1, rust_information _ h2⟩
    | exact ⟨hf.1 _ h1, rust_information _ h2, (fits_strs 0 _).rust⟩

/-- C71. The text of a return object determines the object: value, report and warnings, including which
of them are present. -/
theorem C71_object {T : Type} {P : T → Prop} {fT : T → Json} (hf : Faithful P fT)
    (r r' : ReturnObject T ErrorInformation Str)
    (h1 : ∀ t ∈ r.info, P t) (h1' : ∀ t ∈ r'.info, P t)
    (h2 : ∀ i ∈ r.error, i.Numbers) (h2' : ∀ i ∈ r'.error, i.Numbers)
    (h : (r.ser fT ErrorInformation.ser Json.str).print = (r'.ser fT ErrorInformation.ser Json.str).print) :
    r = r' := by
  have h := Json.print_injective _ _ (rust_object hf r h1 h2) (rust_object hf r' h1' h2') h
  obtain ⟨info, error, warnings⟩ := r
  obtain ⟨info', error', warnings'⟩ := r'
  simp only at h1 h1'
  have hk : ∀ k v, (k, v) ∈ (skipNone (str! "info") fT info ++ skipNone (str! "error") ErrorInformation.ser error
      ++ skipNone (str! "warnings") (serVec Json.str) warnings) ↔
      (k, v) ∈ (skipNone (str! "info") fT info' ++ skipNone (str! "error") ErrorInformation.ser error'
      ++ skipNone (str! "warnings") (serVec Json.str) warnings') := by
    intro k v
    rw [Json.obj.inj h]
  have e1 : str! "info" ≠ str! "error" := by decide
  have e2 : str! "info" ≠ str! "warnings" := by decide
  have e3 : str! "error" ≠ str! "warnings" := by decide
  have hmem : ∀ {α : Type} (k k' : Str) (f : α → Json) (o : Option α) (v : Json),
      (k, v) ∈ skipNone k' f o ↔ k = k' ∧ o.map f = some v := by
    intro α k k' f o v
    cases o <;> simp [skipNone, eq_comm]
  have hi := fun v => hk (str! "info") v
  have he := fun v => hk (str! "error") v
  have hw := fun v => hk (str! "warnings") v
  simp only [List.mem_append, hmem, e1, e2, e3, e1.symm, e2.symm, e3.symm, false_and, true_and, or_false,
    false_or] at hi he hw
  have hinj : ∀ {α : Type} {f : α → Json} {o o' : Option α}
      (_ : ∀ a ∈ o, ∀ b ∈ o', f a = f b → a = b) (_ : ∀ v, o.map f = some v ↔ o'.map f = some v), o = o' := by
    intro α f o o' hf h
    cases o with
    | none =>
      cases o' with
      | none => rfl
      | some b => exact absurd ((h _).2 rfl) (by simp)
    | some a =>
      cases o' with
      | none => exact absurd ((h _).1 rfl) (by simp)
      | some b => rw [hf a rfl b rfl (Option.some.inj ((h (f b)).2 rfl))]
  rw [hinj (fun a ha b hb => hf.2 a b (h1 a ha) (h1' b hb)) hi,
    hinj (fun a _ b _ => information_ser_inj a b) he, hinj (fun a _ b _ => serVec_str_inj) hw]

theorem faithful_unit : Faithful (fun _ : Unit => True) serUnit := ⟨fun _ _ => trivial, fun _ _ _ _ _ => rfl⟩

/-- C71. The text of a result determines whether the call succeeded, the value and the report. -/
theorem C71_result {ε T : Type} {P : T → Prop} {fT : T → Json} (hf : Faithful P fT)
    (information : ε → ErrorInformation) (r r' : Except ε T)
    (h1 : ∀ t, r = .ok t ∨ r' = .ok t → P t)
    (h2 : ∀ e, r = .error e ∨ r' = .error e → (information e).Numbers)
    (h3 : ∀ e e', r = .error e → r' = .error e' → information e = information e' → e = e')
    (h : resultText information fT r = resultText information fT r') : r = r' := by
  have h := C71_object hf (toReturnObject information r) (toReturnObject information r') ?_ ?_ ?_ ?_ h
  · cases r <;> cases r' <;> simp only [toReturnObject, ReturnObject.mk.injEq, Option.some.injEq, reduceCtorEq,
      and_false, and_true, true_and] at h
    · rw [h3 _ _ rfl rfl h]
    · rw [h]
  · cases r <;> simp only [toReturnObject] <;> rintro t ⟨⟩
    exact h1 _ (.inl rfl)
  · cases r' <;> simp only [toReturnObject] <;> rintro t ⟨⟩
    exact h1 _ (.inr rfl)
  · cases r <;> simp only [toReturnObject] <;> rintro t ⟨⟩
    exact h2 _ (.inl rfl)
  · cases r' <;> simp only [toReturnObject] <;> rintro t ⟨⟩
    exact h2 _ (.inr rfl)

/-- C71. Token requests: the text of the return object determines the outcome of the evaluation. -/
theorem C71_token (r r' : AccessTokenRequest) (offer offer' : Option CredentialOffer)
    (options options' : Option EvaluateAccessTokenRequestOptions) (o o' : Except AccessTokenError Unit)
    (ho : outcome (AccessToken.evaluateAccessTokenRequest r offer options) = some o)
    (ho' : outcome (AccessToken.evaluateAccessTokenRequest r' offer' options') = some o')
    (h : resultText AccessTokenError.information serUnit o
      = resultText AccessTokenError.information serUnit o') : o = o' := by
  have herr : ∀ {q : AccessTokenResult Unit} {e}, outcome q = some (.error e) → q = .err e := by
    intro q e h; cases q <;> cases h; rfl
  refine C71_result faithful_unit _ o o' (fun _ _ => trivial) ?_ ?_ h
  · rintro e - j hj
    cases hj
    exact Json.rust_of_plain _ (plain_value _ (plain_tokenError e))
  · rintro e e' rfl rfl hi
    exact C61_token _ _ _ _ _ _ _ _ (herr ho) (herr ho') hi

/-- C71. Issuer operations: the text of the return object determines the outcome; the value has to be
written faithfully. -/
theorem C71_issuer (x : Ext) {T : Type} {P : T → Prop} {fT : T → Json} (hf : Faithful P fT)
    {S : Time → Prop} (hx : DistinctTexts x S) (o o' : Except CredentialIssuerError T)
    (h1 : ∀ t, o = .ok t ∨ o' = .ok t → P t)
    (h2 : ∀ e, o = .error e ∨ o' = .error e → IssuerReturns x e ∧ e.Instants S)
    (h : resultText (·.information x) fT o = resultText (·.information x) fT o') : o = o' := by
  refine C71_result hf _ o o' h1 ?_ ?_ h
  · rintro e he j hj
    cases hj
    exact Json.rust_of_plain _ (plain_value _ (plain_issuerError x e fun c cs => C61_never_returned x e (h2 e he).1 c cs))
  · rintro e e' rfl rfl hi
    exact C61_issuer x hx e e' (h2 e (.inl rfl)).2 (h2 e' (.inr rfl)).2
      (fun c cs => C61_never_returned x e (h2 e (.inl rfl)).1 c cs) hi

theorem serOpt_inj {α : Type} {f : α → Json} {o o' : Option α} (hn : ∀ a, f a ≠ .null)
    (hf : ∀ a ∈ o, ∀ b ∈ o', f a = f b → a = b) (h : serOpt f o = serOpt f o') : o = o' := by
  cases o with
  | none =>
    cases o' with
    | none => rfl
    | some b => exact absurd h.symm (hn b)
  | some a =>
    cases o' with
    | none => exact absurd h (hn a)
    | some b => rw [hf a rfl b rfl h]

theorem possession_inj {p p' : ProofOfPossession} (h : p.ser = p'.ser) : p = p' := by
  obtain ⟨a, k, m, s⟩ := p
  obtain ⟨a', k', m', s'⟩ := p'
  simp only [ProofOfPossession.ser, Json.obj.injEq, List.cons.injEq, Prod.mk.injEq, true_and, and_true] at h
  obtain ⟨h1, h2, h3, h4⟩ := h
  have h1 := ProofJwtAlgorithm.de_ser a ▸ h1 ▸ ProofJwtAlgorithm.de_ser a'
  rw [Option.some.inj h1, serBytes_inj h2, serBytes_inj h3, serBytes_inj h4]

theorem plain_possession (p : ProofOfPossession) : PlainNumbers p.ser := by
  refine ⟨?_, (fits_bytes 0 _).1, (fits_bytes 0 _).1, (fits_bytes 0 _).1, trivial⟩
  cases p.algorithm <;> trivial

/-- C71. Evaluation results are written faithfully: the text determines key, algorithm, message,
signature, subject and credential. -/
theorem C71_evaluated :
    Faithful (fun r => RustCredential r.credential) CredentialIssuerEvaluateRequestResponse.ser where
  numbers r h := ⟨by
      cases r.proofOfPossession with
      | none => trivial
      | some p => exact Json.rust_of_plain _ (plain_possession p), Json.rust_of_plain _ (plain_optStr _),
    rust_credential _ h, trivial⟩
  injective r r' h h' he := by
    obtain ⟨p, s, c⟩ := r
    obtain ⟨p', s', c'⟩ := r'
    simp only [CredentialIssuerEvaluateRequestResponse.ser, Json.obj.injEq, List.cons.injEq, Prod.mk.injEq,
      true_and, and_true] at he
    obtain ⟨h1, h2, h3⟩ := he
    have h3 : some c = some c' := by
      rw [← CredentialFormatProfile.de_ser true c h, h3, CredentialFormatProfile.de_ser true c' h']
    rw [serOpt_inj (by simp [ProofOfPossession.ser]) (fun _ _ _ _ => possession_inj) h1,
      serOpt_inj (by simp) (fun _ _ _ _ h => Json.str.inj h) h2, Option.some.inj h3]

/-- C71. Credential requests: the text of the return object determines the outcome of the evaluation,
with chrono's instants. -/
theorem C71_evaluate (x : Ext) (now now' : Time) (m m' : CredentialIssuerMetadata)
    (r r' : CredentialRequest) (offer offer' : Option CredentialOffer)
    (asm asm' : Option AuthorizationServerMetadata) (doc doc' : Option x.Doc)
    (options options' : Option EvaluateCredentialRequestOptions)
    (hr : RustCredential r.format) (hr' : RustCredential r'.format)
    (ht : Time.Valid now ∧ ∀ c ∈ nonceOptions options, Time.Valid c.cNonceCreatedAt)
    (ht' : Time.Valid now' ∧ ∀ c ∈ nonceOptions options', Time.Valid c.cNonceCreatedAt)
    (o o' : Except CredentialIssuerError CredentialIssuerEvaluateRequestResponse)
    (ho : outcome (evaluateCredentialRequest (withChrono x) now m r offer asm doc options) = some o)
    (ho' : outcome (evaluateCredentialRequest (withChrono x) now' m' r' offer' asm' doc' options') = some o')
    (h : resultText (·.information (withChrono x)) CredentialIssuerEvaluateRequestResponse.ser o
      = resultText (·.information (withChrono x)) CredentialIssuerEvaluateRequestResponse.ser o') :
    o = o' := by
  have hok : ∀ {q : CredentialIssuerResult CredentialIssuerEvaluateRequestResponse} {t},
      outcome q = some (.ok t) → q = .ok t := by
    intro q e h; cases q <;> cases h; rfl
  have herr : ∀ {q : CredentialIssuerResult CredentialIssuerEvaluateRequestResponse} {e},
      outcome q = some (.error e) → q = .err e := by
    intro q e h; cases q <;> cases h; rfl
  have hfmt : ∀ {now m r offer asm} {doc : Option (withChrono x).Doc} {options t},
      RustCredential r.format →
      evaluateCredentialRequest (withChrono x) now m r offer asm doc options = .ok t →
      RustCredential t.credential := by
    intro now m r offer asm doc options t hr h
    obtain ⟨-, -, _, _, _, _, _, _, -, -, -, -, -, rfl⟩ := (evaluate_ok_iff ..).1 h
    exact hr
  have hins : ∀ {now m r offer asm} {doc : Option (withChrono x).Doc} {options e}, Time.Valid now →
      (∀ c ∈ nonceOptions options, Time.Valid c.cNonceCreatedAt) →
      evaluateCredentialRequest (withChrono x) now m r offer asm doc options = .err e →
      e.Instants Time.Valid := by
    intro now m r offer asm doc options e hv hc h
    obtain ⟨-, -, -, -, h1, -, -, h2, h3⟩ := C60_never _ _ _ _ _ _ _ _ _ h
    have hr := (C60_evaluate_errors _ _ _ _ _ _ _ _ _).1 h
    cases hr with
    | expired c _ hc' hm hl =>
      refine ⟨hv, ?_, hm⟩
      have := (hc c hc').1
      have h0 : (0 : Int) ≤ (c.cNonceExpiresIn.toNat : Int) * 1000000000 :=
        Int.mul_nonneg (Int.natCast_nonneg _) (by decide)
      exact Int.le_trans this (Int.le_add_of_nonneg_right h0)
    | key o jwt e _ _ =>
      cases e with
      | notYetValid a b => exact absurd rfl (h2 a b)
      | notValidAnymore a b => exact absurd rfl (h3 a b)
      | _ => trivial
    | _ => trivial
  refine C71_issuer (withChrono x) C71_evaluated (C61_instants x) o o' ?_ ?_ h
  · rintro t (rfl | rfl)
    · exact hfmt hr (hok ho)
    · exact hfmt hr' (hok ho')
  · rintro e (rfl | rfl)
    · exact ⟨.evaluate _ _ _ _ _ _ _ (herr ho), hins ht.1 ht.2 (herr ho)⟩
    · exact ⟨.evaluate _ _ _ _ _ _ _ (herr ho'), hins ht'.1 ht'.2 (herr ho')⟩

/-- C71: the text of a success without a value, alone among the texts of results of this kind. -/
theorem C71_unit (o : Except AccessTokenError Unit) :
    resultText AccessTokenError.information serUnit o = str! "{\"info\":null}" ↔ o = .ok () := by
  have h : resultText AccessTokenError.information serUnit (.ok ()) = str! "{\"info\":null}" := by decide +kernel
  refine ⟨fun ho => ?_, fun ho => ho ▸ h⟩
  refine C71_result faithful_unit _ o (.ok ()) (fun _ _ => trivial) ?_ ?_ (ho.trans h.symm)
  · rintro e - j hj
    cases hj
    exact Json.rust_of_plain _ (plain_value _ (plain_tokenError e))
  · rintro e e' - he'
    cases he'

/-- Success without a value, and a failure. -/
example : resultText AccessTokenError.information serUnit (.ok ()) = str! "{\"info\":null}" := by
  decide +kernel
example : resultText AccessTokenError.information serUnit (.error .userPinMismatch)
    = str! "{\"error\":{\"code\":407,\"name\":\"UserPinMismatch\",\"description\":\"Provided user pin does not match user pin from access token request\",\"additional_information\":null}}" := by
  decide +kernel

/-! ### C72 -/

theorem madeFrom_ofVec {T : Type} (into : T → CredentialOrId) (v : List T) :
    MadeFrom into v (CredentialOrIds.ofVec into v) := by
  refine ⟨by simp [CredentialOrIds.ofVec], fun i t h => ?_⟩
  simp [CredentialOrIds.ofVec, h]

/-- C72. A list of texts becomes the list of these ids, a list of profiles the list of these credentials,
and a slice of entries the list of these entries: same number, same order. -/
theorem C72_lists :
    (∀ v : List Str, MadeFrom CredentialOrId.credentialId v (CredentialOrIds.ofVec CredentialOrId.ofText v)) ∧
    (∀ v : List CredentialFormatProfile,
      MadeFrom CredentialOrId.credential v (CredentialOrIds.ofVec CredentialOrId.ofProfile v)) ∧
    (∀ v : List CredentialOrId, MadeFrom id v (CredentialOrIds.ofSlice v)) :=
  ⟨fun v => madeFrom_ofVec _ v, fun v => madeFrom_ofVec _ v, fun v => madeFrom_ofVec _ v⟩

/-- C72. An offer from a list of ids is made exactly if the metadata are in order, no authorized code flow
is requested and every id is known; it lists these ids, in order, and nothing else. -/
theorem C72_offer_ids (m : CredentialIssuerMetadata) (ids : List Str) (endpoint : Option Str)
    (a : Option AuthorizedCodeFlow) (p : Option PreAuthorizedCodeFlow) :
    ((∃ r, createOffer m (CredentialOrIds.ofVec CredentialOrId.ofText ids) endpoint a p = .ok r) ↔
      DistinctIds m.credentialsSupported ∧ a = none ∧ ∀ id ∈ ids, KnownId m id) ∧
    ∀ offer url, createOffer m (CredentialOrIds.ofVec CredentialOrId.ofText ids) endpoint a p = .ok (offer, url) →
      MadeFrom CredentialOrId.credentialId ids offer.credentials := by
  obtain ⟨h1, h2, -⟩ := C12_create_offer m (CredentialOrIds.ofVec CredentialOrId.ofText ids) endpoint a p
  refine ⟨h1.trans ?_, fun offer url h => ?_⟩
  · simp [CredentialOrIds.ofVec, CredentialOrId.ofText, Resolvable]
  · rw [(h2 offer url h).2.1]
    exact C72_lists.1 ids

/-- C72. An offer from a list of profiles does not depend on the metadata's credentials at all. -/
theorem C72_offer_profiles (m : CredentialIssuerMetadata) (cs : List CredentialFormatProfile)
    (endpoint : Option Str) (a : Option AuthorizedCodeFlow) (p : Option PreAuthorizedCodeFlow) :
    ((∃ r, createOffer m (CredentialOrIds.ofVec CredentialOrId.ofProfile cs) endpoint a p = .ok r) ↔
      DistinctIds m.credentialsSupported ∧ a = none) ∧
    ∀ offer url, createOffer m (CredentialOrIds.ofVec CredentialOrId.ofProfile cs) endpoint a p = .ok (offer, url) →
      MadeFrom CredentialOrId.credential cs offer.credentials := by
  obtain ⟨h1, h2, -⟩ := C12_create_offer m (CredentialOrIds.ofVec CredentialOrId.ofProfile cs) endpoint a p
  refine ⟨h1.trans ?_, fun offer url h => ?_⟩
  · simp [CredentialOrIds.ofVec, CredentialOrId.ofProfile, Resolvable]
  · rw [(h2 offer url h).2.1]
    exact C72_lists.2.1 cs

/-- C72. The default entry is the empty id, which is offered only if the metadata use it. -/
theorem C72_default (m : CredentialIssuerMetadata) :
    (∃ f, CredentialOrId.default.resolve m = .ok f) ↔ KnownId m [] := by
  rw [knownId_iff]; rfl

example : ∃ offer url, createOffer Ex.metadata
    (CredentialOrIds.ofVec CredentialOrId.ofText [str! "b", str! "a", str! "b"]) none none none
      = .ok (offer, url) := by
  obtain ⟨⟨offer, url⟩, h⟩ := (C72_offer_ids Ex.metadata [str! "b", str! "a", str! "b"] none none none).1.2
    ⟨Ex.distinct_metadata, rfl, by simp [KnownId, Ex.metadata, Ex.entry]⟩
  exact ⟨offer, url, h⟩

/-- C71: the texts of an acceptance and of a wrong PIN. -/
example : resultText AccessTokenError.information serUnit (.ok ())
    ≠ resultText AccessTokenError.information serUnit (.error .userPinMismatch) := fun h =>
  absurd (C71_token (Ex.tokenRequest (str! "code") (some 7)) (Ex.tokenRequest (str! "code") (some 8))
    (some Ex.pinOffer) (some Ex.pinOffer) (some ⟨some 7⟩) (some ⟨some 7⟩) _ _ (by decide +kernel) (by decide +kernel) h)
    (by simp)
/-- C72: profiles. -/
example : ∃ r, createOffer Ex.metadata (CredentialOrIds.ofVec CredentialOrId.ofProfile [Ex.ldp, Ex.mdoc]) none none none
    = .ok r := (C72_offer_profiles _ _ _ _ _).1.2 ⟨Ex.distinct_metadata, rfl⟩

end Oid4vci
