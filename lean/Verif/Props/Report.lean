import Verif.Spec.Report
import Verif.Props.Reject
import Verif.Props.Response
import Verif.Props.Claims
import Verif.Lemmas.Token

/-!
C61 (the report of a returned error determines the error), C62 (the report names the values that
were compared).
-/

namespace Oid4vci

open Spec hiding value
open Serde

/-! ### C61 -/

theorem value_num (n : Int) : value (.num n) = .num n := rfl
theorem value_str (s : Str) : value (.str s) = .str s := rfl
theorem value_bool (b : Bool) : value (.bool b) = .bool b := rfl
theorem value_null : value .null = .null := rfl

theorem value_serOpt {α : Type} {f : α → Json} (hf : ∀ a, value (f a) = f a) (o : Option α) :
    value (serOpt f o) = serOpt f o := by
  cases o with
  | none => rfl
  | some a => exact hf a

theorem valueList_eq (xs : List Json) : valueList xs = xs.map value := by
  induction xs with
  | nil => rfl
  | cons x xs ih => rw [valueList, ih]; rfl

theorem value_serVec {α : Type} {f : α → Json} (hf : ∀ a, value (f a) = f a) (xs : List α) :
    value (serVec f xs) = serVec f xs := by
  simp [serVec, value, valueList_eq, hf, Function.comp_def]

theorem value_bytes (o : Option Bytes) : value (serOpt serBytes o) = serOpt serBytes o :=
  value_serOpt (fun b => value_serVec (fun _ => rfl) b) o

/-- An object with one member. -/
theorem value_one (k : Str) (v : Json) : value (.obj [(k, v)]) = .obj [(k, value v)] := rfl

/-- An object with two members. -/
theorem value_two (k l : Str) (v w : Json) (h : k ≠ l) : value (.obj [(k, v), (l, w)])
    = if strLt l k then .obj [(l, value w), (k, value v)] else .obj [(k, value v), (l, value w)] := by
  show Json.obj (binsert [(k, value v)] l (value w)) = _
  unfold binsert
  rw [if_neg (Ne.symm h)]
  split <;> rfl

theorem serOpt_str_inj {a b : Option Str} (h : serOpt Json.str a = serOpt Json.str b) : a = b := by
  cases a <;> cases b <;> simp_all [serOpt]

theorem serBytes_inj {a b : Bytes} (h : serBytes a = serBytes b) : a = b := by
  simp only [serBytes, serVec, Json.arr.injEq] at h
  exact List.map_injective_iff.2 (fun u v huv => by
    simpa [Json.num.injEq, UInt8.toNat_inj] using huv) h

theorem serOpt_bytes_inj {a b : Option Bytes} (h : serOpt serBytes a = serOpt serBytes b) :
    a = b := by
  cases a with
  | none => cases b with
    | none => rfl
    | some b => simp [serOpt, serBytes, serVec] at h
  | some a => cases b with
    | none => simp [serOpt, serBytes, serVec] at h
    | some b => exact congrArg some (serBytes_inj h)

/-- Two objects with the same two members. -/
theorem value_two_inj {k l : Str} {v w v' w' : Json} (hkl : k ≠ l)
    (h : value (.obj [(k, v), (l, w)]) = value (.obj [(k, v'), (l, w')])) :
    value v = value v' ∧ value w = value w' := by
  rw [value_two _ _ _ _ hkl, value_two _ _ _ _ hkl] at h
  split at h <;> simp_all

/-- Two objects with the same member. -/
theorem value_one_inj {k : Str} {v v' : Json} (h : value (.obj [(k, v)]) = value (.obj [(k, v')])) :
    value v = value v' := by
  simpa [value_one] using h

/-- The keys of an object. -/
def detailKeys : Json → List Str
  | .obj kvs => kvs.map (·.1)
  | _ => []

/-- The keys of the JSON of each variant of `JwtError`, in the order of the enum. -/
def jwtKeys : List (List Str) :=
  [[str! "validation_message"], [str! "now", str! "valid_from"], [str! "now", str! "valid_until"],
   [str! "actual_iss_in_jwt", str! "expected_iss_in_jwt"], [], [], [str! "kid", str! "message"],
   [str! "did", str! "message"], [str! "messsage"], [str! "original_string", str! "serde_message"],
   [str! "algorithm"], [], [str! "algorithm", str! "x", str! "y"], [str! "jwt"],
   [str! "key_name", str! "key_type"], [str! "actual_nonce", str! "expected_nonce"],
   [str! "actual_aud_in_jwt", str! "expected_aud_in_jwt"]]

theorem jwtKeys_eq (x : Ext) (e : JwtError) :
    jwtKeys[e.ctorIdx]? = some (detailKeys (value (e.ser x))) := by
  cases e with
  | validationError e => cases e; rfl
  | _ => rfl

theorem jwtKeys_inj : ∀ i j : Fin 17, jwtKeys[i.1]? = jwtKeys[j.1]? →
    i.1 = j.1 ∨ (i.1 ∈ [4, 5, 11] ∧ j.1 ∈ [4, 5, 11]) := by
  decide +kernel

/-- A JWT error is determined by its JSON and its text. -/
theorem jwtError_ser_inj (x : Ext) {T : Time → Prop} (hx : DistinctTexts x T) (e e' : JwtError)
    (ht : ∀ a b, (e = .notYetValid a b ∨ e = .notValidAnymore a b ∨ e' = .notYetValid a b ∨
      e' = .notValidAnymore a b) → T a ∧ T b)
    (hs : value (e.ser x) = value (e'.ser x)) (hd : e.description x = e'.description x) : e = e' := by
  have hb : ∀ e : JwtError, e.ctorIdx < 17 := by
    intro e; cases e <;> exact Nat.lt_of_sub_pos (by exact Nat.succ_pos _)
  have hk : jwtKeys[e.ctorIdx]? = jwtKeys[e'.ctorIdx]? := by rw [jwtKeys_eq x, jwtKeys_eq x, hs]
  have hstr : ∀ {a b : Str}, value (.str a) = value (.str b) → a = b := fun h => Json.str.inj h
  have hopt : ∀ {a b : Option Str}, value (serOpt .str a) = value (serOpt .str b) → a = b := by
    intro a b h
    rw [value_serOpt (fun _ => rfl), value_serOpt (fun _ => rfl)] at h
    exact serOpt_str_inj h
  rcases jwtKeys_inj ⟨_, hb e⟩ ⟨_, hb e'⟩ hk with hi | ⟨hi, hj⟩
  · cases e with
    | validationError e =>
      cases e' with
      | validationError e' =>
        cases e; cases e'
        rw [hstr (value_one_inj hs)]
      | _ => exact (Nat.ne_of_beq_eq_false rfl hi).elim
    | notYetValid a b =>
      cases e' with
      | notYetValid a' b' =>
        obtain ⟨h1, h2⟩ := value_two_inj (by decide) hs
        have t := ht a b (.inl rfl)
        have t' := ht a' b' (.inr (.inr (.inl rfl)))
        rw [hx _ _ t.1 t'.1 (hstr h1), hx _ _ t.2 t'.2 (hstr h2)]
      | _ => exact (Nat.ne_of_beq_eq_false rfl hi).elim
    | notValidAnymore a b =>
      cases e' with
      | notValidAnymore a' b' =>
        obtain ⟨h1, h2⟩ := value_two_inj (by decide) hs
        have t := ht a b (.inr (.inl rfl))
        have t' := ht a' b' (.inr (.inr (.inr rfl)))
        rw [hx _ _ t.1 t'.1 (hstr h1), hx _ _ t.2 t'.2 (hstr h2)]
      | _ => exact (Nat.ne_of_beq_eq_false rfl hi).elim
    | issuerMismatch a b =>
      cases e' with
      | issuerMismatch a' b' =>
        obtain ⟨h1, h2⟩ := value_two_inj (by decide) hs
        rw [hopt h1, hopt h2]
      | _ => exact (Nat.ne_of_beq_eq_false rfl hi).elim
    | noKeyFoundInProof =>
      cases e' with
      | noKeyFoundInProof => rfl
      | _ => exact (Nat.ne_of_beq_eq_false rfl hi).elim
    | noDidDocumentProvidedForKidAsDid =>
      cases e' with
      | noDidDocumentProvidedForKidAsDid => rfl
      | _ => exact (Nat.ne_of_beq_eq_false rfl hi).elim
    | unableToTransformIntoDid a b =>
      cases e' with
      | unableToTransformIntoDid a' b' =>
        obtain ⟨h1, h2⟩ := value_two_inj (by decide) hs
        rw [hstr h1, hstr h2]
      | _ => exact (Nat.ne_of_beq_eq_false rfl hi).elim
    | unableToResolveDidInDidDocument a b =>
      cases e' with
      | unableToResolveDidInDidDocument a' b' =>
        obtain ⟨h1, h2⟩ := value_two_inj (by decide) hs
        rw [hstr h1, hstr h2]
      | _ => exact (Nat.ne_of_beq_eq_false rfl hi).elim
    | unableToMapVerificationMethodToJwk a =>
      cases e' with
      | unableToMapVerificationMethodToJwk a' => rw [hstr (value_one_inj hs)]
      | _ => exact (Nat.ne_of_beq_eq_false rfl hi).elim
    | unableToTransformIntoJoseItem a b =>
      cases e' with
      | unableToTransformIntoJoseItem a' b' =>
        obtain ⟨h1, h2⟩ := value_two_inj (by decide) hs
        rw [hstr h1, hstr h2]
      | _ => exact (Nat.ne_of_beq_eq_false rfl hi).elim
    | unsupportedAlgorithm a =>
      cases e' with
      | unsupportedAlgorithm a' => rw [hstr (value_one_inj hs)]
      | _ => exact (Nat.ne_of_beq_eq_false rfl hi).elim
    | edDSAHasNoXCoordinate =>
      cases e' with
      | edDSAHasNoXCoordinate => rfl
      | _ => exact (Nat.ne_of_beq_eq_false rfl hi).elim
    | eSXXXHasNoXOrYCoordinate a b c =>
      cases e' with
      | eSXXXHasNoXOrYCoordinate a' b' c' =>
        have h := Json.obj.inj hs
        have h1 := congrArg Prod.snd (List.cons.inj h).1
        have h2 := congrArg Prod.snd (List.cons.inj (List.cons.inj h).2).1
        have h3 := congrArg Prod.snd (List.cons.inj (List.cons.inj (List.cons.inj h).2).2).1
        change value (serOpt serBytes b) = value (serOpt serBytes b') at h2
        change value (serOpt serBytes c) = value (serOpt serBytes c') at h3
        rw [value_bytes, value_bytes] at h2 h3
        rw [hstr h1, serOpt_bytes_inj h2, serOpt_bytes_inj h3]
      | _ => exact (Nat.ne_of_beq_eq_false rfl hi).elim
    | signatureNotInJwt a =>
      cases e' with
      | signatureNotInJwt a' => rw [hstr (value_one_inj hs)]
      | _ => exact (Nat.ne_of_beq_eq_false rfl hi).elim
    | unsupportedKeyTypeInJwtHeader a b =>
      cases e' with
      | unsupportedKeyTypeInJwtHeader a' b' =>
        obtain ⟨h1, h2⟩ := value_two_inj (by decide) hs
        rw [hstr h1, hstr h2]
      | _ => exact (Nat.ne_of_beq_eq_false rfl hi).elim
    | nonceMismatch a b =>
      cases e' with
      | nonceMismatch a' b' =>
        obtain ⟨h1, h2⟩ := value_two_inj (by decide) hs
        rw [hopt h1, hstr h2]
      | _ => exact (Nat.ne_of_beq_eq_false rfl hi).elim
    | audienceMismatch a b =>
      cases e' with
      | audienceMismatch a' b' =>
        obtain ⟨h1, h2⟩ := value_two_inj (by decide) hs
        rw [hstr h1, hstr h2]
      | _ => exact (Nat.ne_of_beq_eq_false rfl hi).elim
  · have h3 : ∀ e : JwtError, e.ctorIdx ∈ [4, 5, 11] → e = .noKeyFoundInProof ∨
        e = .noDidDocumentProvidedForKidAsDid ∨ e = .edDSAHasNoXCoordinate := by
      intro e h
      cases e with
      | noKeyFoundInProof => exact .inl rfl
      | noDidDocumentProvidedForKidAsDid => exact .inr (.inl rfl)
      | edDSAHasNoXCoordinate => exact .inr (.inr rfl)
      | _ =>
        simp only [List.mem_cons, List.not_mem_nil, or_false] at h
        rcases h with h | h | h <;> exact (Nat.ne_of_beq_eq_false rfl h).elim
    rcases h3 e hi with rfl | rfl | rfl <;> rcases h3 e' hj with rfl | rfl | rfl <;>
      first
      | rfl
      | (simp only [JwtError.description] at hd; exact absurd hd (by decide +kernel))


theorem issuer_ctor_lt (e : CredentialIssuerError) : e.ctorIdx < 13 := by
  cases e <;> exact Nat.lt_of_sub_pos (by exact Nat.succ_pos _)

/-- C61. Validation errors: the report determines the message. -/
theorem C61_validation (e e' : ValidationError) (h : e.information = e'.information) : e = e' := by
  cases e; cases e'
  have hs := Option.some.inj (congrArg ErrorInformation.additionalInformation h)
  rw [Json.str.inj (value_one_inj hs)]

example : (ValidationError.any (str! "a")).information ≠ (ValidationError.any (str! "b")).information :=
  fun h => absurd (C61_validation _ _ h) (by decide)

/-- C61. JWT errors: the report determines the error with all its values; instants as far as their
texts are distinct. -/
theorem C61_jwt (x : Ext) {T : Time → Prop} (hx : DistinctTexts x T) (e e' : JwtError)
    (ht : ∀ a b, (e = .notYetValid a b ∨ e = .notValidAnymore a b ∨ e' = .notYetValid a b ∨
      e' = .notValidAnymore a b) → T a ∧ T b)
    (h : e.information x = e'.information x) : e = e' :=
  jwtError_ser_inj x hx e e' ht (Option.some.inj (congrArg ErrorInformation.additionalInformation h))
    (congrArg ErrorInformation.description h)

/-- Two keys, without instants. -/
example : (JwtError.audienceMismatch (str! "a") (str! "b")).information Ex.ext
    ≠ (JwtError.audienceMismatch (str! "b") (str! "a")).information Ex.ext := fun h =>
  absurd (C61_jwt Ex.ext (T := fun _ => False) (by intro _ _ h; cases h)
    (.audienceMismatch (str! "a") (str! "b")) (.audienceMismatch (str! "b") (str! "a")) (by simp) h) (by decide)

/-- The instants of an error. -/
def CredentialIssuerError.Instants (T : Time → Prop) : CredentialIssuerError → Prop
  | .jwtError (.notYetValid a b) | .jwtError (.notValidAnymore a b) => T a ∧ T b
  | .expiredCNonce a b => T a ∧ ∀ t ∈ b, T t
  | .cNonceIsExpired a b => T a ∧ T b
  | _ => True

/-- C61. Issuer errors: the report determines the error with all its values, including those of a
nested JWT error. `InvalidRequestedCredential` is left out: it is never returned
(`C61_never_returned`). -/
theorem C61_issuer (x : Ext) {T : Time → Prop} (hx : DistinctTexts x T) (e e' : CredentialIssuerError)
    (ht : e.Instants T) (ht' : e'.Instants T) (hn : ∀ c cs, e ≠ .invalidRequestedCredential c cs)
    (h : e.information x = e'.information x) : e = e' := by
  have hs : value (e.ser x) = value (e'.ser x) :=
    Option.some.inj (congrArg ErrorInformation.additionalInformation h)
  have hd : e.description x = e'.description x := congrArg ErrorInformation.description h
  have hi := ((C41_code_iff x (.issuer e) (.issuer e')).1
    (congrArg ErrorInformation.code h)).2
  replace hi : e.ctorIdx = e'.ctorIdx := hi
  have hstr : ∀ {a b : Str}, value (.str a) = value (.str b) → a = b := fun h => Json.str.inj h
  cases e with
  | validationError e =>
    cases e' with
    | validationError e' =>
      cases e; cases e'
      rw [hstr (value_one_inj hs)]
    | _ => exact (Nat.ne_of_beq_eq_false rfl hi).elim
  | jwtError e =>
    cases e' with
    | jwtError e' =>
      rw [jwtError_ser_inj x hx e e' ?_ hs hd]
      rintro a b (rfl | rfl | rfl | rfl) <;> assumption
    | _ => exact (Nat.ne_of_beq_eq_false rfl hi).elim
  | credentialIdNotInIssuerMetadata a =>
    cases e' with
    | credentialIdNotInIssuerMetadata a' => rw [hstr (value_one_inj hs)]
    | _ => exact (Nat.ne_of_beq_eq_false rfl hi).elim
  | invalidCredentialOfferEncoding a =>
    cases e' with
    | invalidCredentialOfferEncoding a' => rw [hstr (value_one_inj hs)]
    | _ => exact (Nat.ne_of_beq_eq_false rfl hi).elim
  | evaluteCredentialRequestOptionsNotSupplied a =>
    cases e' with
    | evaluteCredentialRequestOptionsNotSupplied a' => rw [hstr (value_one_inj hs)]
    | _ => exact (Nat.ne_of_beq_eq_false rfl hi).elim
  | invalidRequestedCredential c cs => exact absurd rfl (hn c cs)
  | expiredCNonce a b =>
    cases e' with
    | expiredCNonce a' b' =>
      obtain ⟨h1, h2⟩ := value_two_inj (by decide) hs
      rw [hx _ _ ht.1 ht'.1 (hstr h1)]
      cases b with
      | none => cases b' with
        | none => rfl
        | some b' => exact absurd h2 (by simp [serOpt, value])
      | some b => cases b' with
        | none => exact absurd h2 (by simp [serOpt, value])
        | some b' => rw [hx _ _ (ht.2 b rfl) (ht'.2 b' rfl) (hstr h2)]
    | _ => exact (Nat.ne_of_beq_eq_false rfl hi).elim
  | cNonceIsExpired a b =>
    cases e' with
    | cNonceIsExpired a' b' =>
      obtain ⟨h1, h2⟩ := value_two_inj (by decide) hs
      rw [hx _ _ ht.1 ht'.1 (hstr h1), hx _ _ ht.2 ht'.2 (hstr h2)]
    | _ => exact (Nat.ne_of_beq_eq_false rfl hi).elim
  | authorizedFlowNotSupported =>
    cases e' with
    | authorizedFlowNotSupported => rfl
    | _ => exact (Nat.ne_of_beq_eq_false rfl hi).elim
  | credentialAndAcceptanceTokenSupplied =>
    cases e' with
    | credentialAndAcceptanceTokenSupplied => rfl
    | _ => exact (Nat.ne_of_beq_eq_false rfl hi).elim
  | authorizationServerMetadataNotSupported =>
    cases e' with
    | authorizationServerMetadataNotSupported => rfl
    | _ => exact (Nat.ne_of_beq_eq_false rfl hi).elim
  | credentialOfferMustBeSupplied =>
    cases e' with
    | credentialOfferMustBeSupplied => rfl
    | _ => exact (Nat.ne_of_beq_eq_false rfl hi).elim
  | noProofInCredentialRequest =>
    cases e' with
    | noProofInCredentialRequest => rfl
    | _ => exact (Nat.ne_of_beq_eq_false rfl hi).elim

/-- C61. The excluded variant is never returned. -/
theorem C61_never_returned (x : Ext) (e : CredentialIssuerError) (h : IssuerReturns x e)
    (c : CredentialFormatProfile) (cs : List CredentialFormatProfile) :
    e ≠ .invalidRequestedCredential c cs := by
  rintro rfl
  cases h with
  | createOffer m cs' endpoint a p h =>
    have hc := C12_create_offer m cs' endpoint a p
    by_cases hd : DistinctIds m.credentialsSupported
    · by_cases ha : a = none
      · rcases resolveAll_cases m cs' with ⟨hall, -⟩ | ⟨id, hu, -⟩
        · obtain ⟨r, hr⟩ := hc.1.2 ⟨hd, ha, hall⟩
          rw [h] at hr; cases hr
        · have := hc.2.2.2.2 hd ha id hu
          rw [h] at this; cases this
      · have := hc.2.2.2.1 hd ha
        rw [h] at this; cases this
    · obtain ⟨e, he⟩ := hc.2.2.1 hd
      rw [h] at he; cases he
  | preEvaluate r h => cases (C60_pre_evaluate_errors x r _).1 h
  | evaluate now m r offer asm doc options h =>
    exact (C60_never x now m r offer asm doc options _ h).2.2.2.1 c cs rfl
  | success now r c nonce h =>
    unfold CredentialIssuer.createCredentialSuccessResponse at h
    rcases Res.bind_eq_err.1 h with h | ⟨-, -, h⟩
    · obtain ⟨_, _, h⟩ := Res.mapErr_eq_err.1 h
      cases h
    · cases c with
      | none => cases nonce <;> cases h
      | some c =>
        cases c with
        | acceptanceToken t => cases nonce <;> cases h
        | credential c =>
          cases nonce <;>
          · rcases Res.bind_eq_err.1 h with h | ⟨_, -, h⟩
            · obtain ⟨_, _, h⟩ := Res.mapErr_eq_err.1 h
              cases h
            · cases h

/-- The errors of the pre-authorized code check. -/
theorem preTable_cases (code : Str) (pin : Option UInt64) (p : PreAuthorizedCodeFlow)
    (ex : Option UInt64) (e : AccessTokenError) (h : preTable code pin p ex = some e) :
    e = .userPinMismatch ∨ (∃ s, e = .optionsAreRequiredForEvaluation s) ∨
      ∃ b c, e = .invalidPreAuthorizedCodeFlowValues b c := by
  unfold preTable at h
  simp only [firstRow] at h
  split at h
  · cases h; exact .inr (.inl ⟨_, rfl⟩)
  split at h
  · cases h; exact .inl rfl
  split at h
  · cases h; exact .inr (.inr ⟨_, _, rfl⟩)
  split at h
  · cases h; exact .inr (.inr ⟨_, _, rfl⟩)
  · cases h

/-- The two parts of a returned combined error are a wrong grant type and an error of the
pre-authorized code. -/
theorem token_errors (r : AccessTokenRequest) (offer : Option CredentialOffer)
    (options : Option EvaluateAccessTokenRequestOptions) (a p : AccessTokenError)
    (h : AccessToken.evaluateAccessTokenRequest r offer options
      = .err (.invalidAuthorizedAndPreAuthorizedCodeFlow a p)) :
    a = wrongGrant ∧ (p = .userPinMismatch ∨ (∃ s, p = .optionsAreRequiredForEvaluation s) ∨
      ∃ b c, p = .invalidPreAuthorizedCodeFlowValues b c) := by
  obtain ⟨h1, h2⟩ := C07_decision_table r offer options
  cases hg : r.grantType with
  | authorizedCodeFlow => rw [h1 hg] at h; cases h
  | preAuthorizedCodeFlow code pin =>
    obtain ⟨h3, h4⟩ := h2 code pin hg
    by_cases hl : ∃ n, pin = some n ∧ ¬ AtMostDigits 9 n.toNat
    · obtain ⟨m, hm⟩ := h3 hl
      rw [hm] at h; cases h
    · replace h4 := h4 (by simpa using hl)
      cases ht : grantTable code pin offer (expectedPin options) with
      | none => rw [ht] at h4; rw [h] at h4; cases h4
      | some e =>
        rw [ht] at h4
        simp only at h4
        rw [h] at h4
        cases h4
        unfold grantTable at ht
        have hn : ∀ q : PreAuthorizedCodeFlow, preTable code pin q (expectedPin options)
            ≠ some (.invalidAuthorizedAndPreAuthorizedCodeFlow a p) := by
          intro q hq
          rcases preTable_cases _ _ _ _ _ hq with h | ⟨_, h⟩ | ⟨_, _, h⟩ <;> cases h
        split at ht
        · cases ht
        · split at ht
          · cases ht
          · cases ht
          · exact absurd ht (hn _)
          · obtain ⟨e, he, h⟩ := Option.map_eq_some_iff.1 ht
            cases h
            exact ⟨rfl, preTable_cases _ _ _ _ _ he⟩

theorem serVec_str_inj {a b : List Str} (h : serVec Json.str a = serVec Json.str b) : a = b := by
  simp only [serVec, Json.arr.injEq] at h
  exact List.map_injective_iff.2 (fun _ _ h => Json.str.inj h) h

/-- C61. Token errors: the report of a returned error determines the error with all its values. -/
theorem C61_token (r r' : AccessTokenRequest) (offer offer' : Option CredentialOffer)
    (options options' : Option EvaluateAccessTokenRequestOptions) (e e' : AccessTokenError)
    (h : AccessToken.evaluateAccessTokenRequest r offer options = .err e)
    (h' : AccessToken.evaluateAccessTokenRequest r' offer' options' = .err e')
    (hr : e.information = e'.information) : e = e' := by
  have hs : value e.ser = value e'.ser :=
    Option.some.inj (congrArg ErrorInformation.additionalInformation hr)
  have hi : e.ctorIdx = e'.ctorIdx := ((C41_code_iff Ex.ext (.token e) (.token e')).1
    (congrArg ErrorInformation.code hr)).2
  have hstr : ∀ {a b : Str}, value (.str a) = value (.str b) → a = b := fun h => Json.str.inj h
  have hbool : ∀ {a b : Bool}, value (.bool a) = value (.bool b) → a = b := fun h => Json.bool.inj h
  cases e with
  | validationError e =>
    cases e' with
    | validationError e' =>
      cases e; cases e'
      rw [hstr (value_one_inj hs)]
    | _ => exact (Nat.ne_of_beq_eq_false rfl hi).elim
  | invalidGrantType a b =>
    cases e' with
    | invalidGrantType a' b' =>
      obtain ⟨h1, h2⟩ := value_two_inj (by decide) hs
      rw [value_serVec (fun _ => rfl), value_serVec (fun _ => rfl)] at h2
      rw [hstr h1, serVec_str_inj h2]
    | _ => exact (Nat.ne_of_beq_eq_false rfl hi).elim
  | authorizedFlowNotSupported =>
    cases e' with
    | authorizedFlowNotSupported => rfl
    | _ => exact (Nat.ne_of_beq_eq_false rfl hi).elim
  | noFlowSupportedInCredentialOffer =>
    cases e' with
    | noFlowSupportedInCredentialOffer => rfl
    | _ => exact (Nat.ne_of_beq_eq_false rfl hi).elim
  | invalidPreAuthorizedCodeFlowValues a b =>
    cases e' with
    | invalidPreAuthorizedCodeFlowValues a' b' =>
      obtain ⟨h1, h2⟩ := value_two_inj (by decide) hs
      rw [hbool h1, hbool h2]
    | _ => exact (Nat.ne_of_beq_eq_false rfl hi).elim
  | invalidAuthorizedAndPreAuthorizedCodeFlow a p =>
    cases e' with
    | invalidAuthorizedAndPreAuthorizedCodeFlow a' p' =>
      obtain ⟨h1, h2⟩ := value_two_inj (by decide) hs
      obtain ⟨rfl, hp⟩ := token_errors _ _ _ _ _ h
      obtain ⟨rfl, hp'⟩ := token_errors _ _ _ _ _ h'
      rcases hp with rfl | ⟨s, rfl⟩ | ⟨b, c, rfl⟩ <;>
        rcases hp' with rfl | ⟨s', rfl⟩ | ⟨b', c', rfl⟩
      · rfl
      · exact Json.noConfusion h2
      · exact Json.noConfusion h2
      · exact Json.noConfusion h2
      · rw [hstr (value_one_inj h2)]
      · exact absurd (congrArg (fun j => (detailKeys j).length) h2) (by
          intro h; exact (Nat.ne_of_beq_eq_false rfl h).elim)
      · exact Json.noConfusion h2
      · exact absurd (congrArg (fun j => (detailKeys j).length) h2) (by
          intro h; exact (Nat.ne_of_beq_eq_false rfl h).elim)
      · obtain ⟨h3, h4⟩ := value_two_inj (by decide) h2
        rw [hbool h3, hbool h4]
    | _ => exact (Nat.ne_of_beq_eq_false rfl hi).elim
  | optionsAreRequiredForEvaluation a =>
    cases e' with
    | optionsAreRequiredForEvaluation a' => rw [hstr (value_one_inj hs)]
    | _ => exact (Nat.ne_of_beq_eq_false rfl hi).elim
  | userPinMismatch =>
    cases e' with
    | userPinMismatch => rfl
    | _ => exact (Nat.ne_of_beq_eq_false rfl hi).elim
  | credentialOfferMustBeSupplied =>
    cases e' with
    | credentialOfferMustBeSupplied => rfl
    | _ => exact (Nat.ne_of_beq_eq_false rfl hi).elim

/-- A wrong code and a missing PIN. -/
example : ∃ e e', AccessToken.evaluateAccessTokenRequest (Ex.tokenRequest (str! "kode") none) (some Ex.pinOffer)
      (some ⟨some 2⟩) = .err e ∧
    AccessToken.evaluateAccessTokenRequest (Ex.tokenRequest (str! "code") none) (some Ex.pinOffer)
      (some ⟨some 2⟩) = .err e' ∧ e.information ≠ e'.information :=
  ⟨.invalidPreAuthorizedCodeFlowValues true false, .invalidPreAuthorizedCodeFlowValues true true,
    by decide +kernel, by decide +kernel, fun h => absurd (C61_token (Ex.tokenRequest (str! "kode") none)
      (Ex.tokenRequest (str! "code") none) (some Ex.pinOffer) (some Ex.pinOffer) (some ⟨some 2⟩) (some ⟨some 2⟩)
      _ _ (by decide +kernel) (by decide +kernel) h) (by decide)⟩

/-- Not so for errors in general: the parts of a combined error can be confused. -/
theorem C61_nested_collision : ∃ e e' : AccessTokenError, e ≠ e' ∧ e.information = e'.information :=
  ⟨.invalidAuthorizedAndPreAuthorizedCodeFlow .authorizedFlowNotSupported .userPinMismatch,
    .invalidAuthorizedAndPreAuthorizedCodeFlow .userPinMismatch .authorizedFlowNotSupported,
    by decide, rfl⟩

/-- C61. With chrono's format all representable instants have distinct texts. -/
theorem C61_instants (x : Ext) : DistinctTexts (withChrono x) Time.Valid :=
  fun s t hs ht h => C56_injective s t hs ht h

/-- Two reports of the same nested variant, with other values. -/
example : (CredentialIssuerError.jwtError (.nonceMismatch (some (str! "a")) (str! "b"))).information
      Ex.ext
    ≠ (CredentialIssuerError.jwtError (.nonceMismatch (some (str! "b")) (str! "a"))).information
      Ex.ext := fun h =>
  absurd (C61_issuer Ex.ext (T := fun _ => False) (by intro _ _ h; cases h) 
    (.jwtError (.nonceMismatch (some (str! "a")) (str! "b")))
    (.jwtError (.nonceMismatch (some (str! "b")) (str! "a"))) trivial trivial
    (by simp) h) (by decide)

/-- A returned combined error. -/
example : AccessToken.evaluateAccessTokenRequest (Ex.tokenRequest (str! "code") (some 1))
    (some Ex.bothOffer) (some ⟨some 2⟩)
      = .err (.invalidAuthorizedAndPreAuthorizedCodeFlow wrongGrant .userPinMismatch) := by
  decide +kernel

/-! ### C62 -/

section
variable (x : Ext) (now : Time) (m : CredentialIssuerMetadata) (r : CredentialRequest)
  (offer : Option CredentialOffer) (asm : Option AuthorizationServerMetadata) (doc : Option x.Doc)
  (options : Option EvaluateCredentialRequestOptions)

open CredentialIssuer

/-- C62. An expired nonce: the report has both instants. -/
theorem C62_expired (c : CNonceOptions) (hc : Configured m offer asm)
    (ho : nonceOptions options = some c) (hm : nonceExpiry c ≤ Time.max) (hl : nonceExpiry c < now) :
    ∃ i, reportOf (·.information x)
        (evaluateCredentialRequest x now m r offer asm doc options) = some i ∧ i.code = 111 ∧
      i.description = str! "c_nonce expires at " ++ x.dispTime (nonceExpiry c)
        ++ str! " which is before " ++ x.dispTime now ∧
      Details i [(str! "now", .str (x.showTime now)),
        (str! "expiry_timestamp", .str (x.showTime (nonceExpiry c)))] := by
  rw [(C60_evaluate_errors x now m r offer asm doc options _).2 (.expired c hc ho hm hl)]
  exact ⟨_, rfl, rfl, rfl, _, rfl, .swap ..⟩

/-- C62. Another nonce: the report has the expected and the actual nonce. -/
theorem C62_nonce (jwt : ProofJwt) (hc : Configured m offer asm) (ht : Timely now options)
    (hj : Carries x r jwt) (htyp : EqFold jwt.header.typ proofTyp)
    (hn : expectedNonce options ≠ some jwt.body.nonce) :
    ∃ i, reportOf (·.information x)
        (evaluateCredentialRequest x now m r offer asm doc options) = some i ∧ i.code = 101 ∧
      Details i [(str! "expected_nonce", orNull (expectedNonce options)),
        (str! "actual_nonce", .str jwt.body.nonce)] := by
  rw [(C60_evaluate_errors x now m r offer asm doc options _).2 (.nonce jwt hc ht hj htyp hn)]
  refine ⟨_, rfl, rfl, ?_⟩
  cases expectedNonce options <;> exact ⟨_, rfl, .swap ..⟩

/-- Another nonce. -/
example : ∃ i, reportOf (·.information Ex.ext) (CredentialIssuer.evaluateCredentialRequest Ex.ext 1000 Ex.metadata
      Ex.request (some Ex.pinOffer) none (some Ex.didDoc) (some ⟨some ⟨100, str! "other", 0⟩, none⟩)) = some i ∧
    i.code = 101 ∧ Details i [(str! "expected_nonce", .str (str! "other")), (str! "actual_nonce", .str (str! "nonce"))] :=
  C62_nonce Ex.ext 1000 Ex.metadata Ex.request (some Ex.pinOffer) none (some Ex.didDoc)
    (some ⟨some ⟨100, str! "other", 0⟩, none⟩) _ ⟨Ex.distinct_metadata, by simp, rfl⟩
    (by rintro c ⟨⟩; exact ⟨by decide +kernel, by decide +kernel⟩)
    ⟨_, rfl, Ex.fromStr_request⟩ Ex.bound.typ (by decide +kernel)

/-- C62. Another client: the report has the expected and the actual issuer of the JWT. -/
theorem C62_client (o : CredentialOffer) (jwt : ProofJwt) (hc : Configured m offer asm)
    (ho : offer = some o) (ht : Timely now options) (hj : Carries x r jwt)
    (htyp : EqFold jwt.header.typ proofTyp) (hn : expectedNonce options = some jwt.body.nonce)
    (hcl : ¬ ClientOk options o jwt) :
    ∃ i, reportOf (·.information x)
        (evaluateCredentialRequest x now m r offer asm doc options) = some i ∧ i.code = 101 ∧
      Details i [(str! "expected_iss_in_jwt", orNull (clientId options)),
        (str! "actual_iss_in_jwt", orNull jwt.body.issuer)] := by
  rw [(C60_evaluate_errors x now m r offer asm doc options _).2
    (.client o jwt hc ho ht hj htyp hn hcl)]
  refine ⟨_, rfl, rfl, ?_⟩
  cases clientId options <;> cases jwt.body.issuer <;> exact ⟨_, rfl, .swap ..⟩

/-- A client is expected, and the JWT names none. -/
example : ∃ i, reportOf (·.information Ex.ext) (CredentialIssuer.evaluateCredentialRequest Ex.ext 1000 Ex.metadata
      Ex.request (some Ex.pinOffer) none (some Ex.didDoc) (some ⟨some ⟨100, str! "nonce", 0⟩, some (str! "wallet")⟩))
      = some i ∧
    i.code = 101 ∧ Details i [(str! "expected_iss_in_jwt", .str (str! "wallet")), (str! "actual_iss_in_jwt", .null)] :=
  C62_client Ex.ext 1000 Ex.metadata Ex.request (some Ex.pinOffer) none (some Ex.didDoc)
    (some ⟨some ⟨100, str! "nonce", 0⟩, some (str! "wallet")⟩) Ex.pinOffer _ ⟨Ex.distinct_metadata, by simp, rfl⟩ rfl
    (by rintro c ⟨⟩; exact ⟨by decide +kernel, by decide +kernel⟩)
    ⟨_, rfl, Ex.fromStr_request⟩ Ex.bound.typ (by decide +kernel)
    (fun h => absurd (h (.inl (by decide +kernel))) (by decide +kernel))

/-- C62. Another audience: the report has the issuer's URL and the audience of the JWT. -/
theorem C62_audience (o : CredentialOffer) (jwt : ProofJwt) (hc : Configured m offer asm)
    (ho : offer = some o) (ht : Timely now options) (hj : Carries x r jwt)
    (htyp : EqFold jwt.header.typ proofTyp) (hn : expectedNonce options = some jwt.body.nonce)
    (hcl : ClientOk options o jwt) (ha : jwt.body.audience ≠ m.credentialIssuer) :
    ∃ i, reportOf (·.information x)
        (evaluateCredentialRequest x now m r offer asm doc options) = some i ∧ i.code = 101 ∧
      Details i [(str! "expected_aud_in_jwt", .str m.credentialIssuer),
        (str! "actual_aud_in_jwt", .str jwt.body.audience)] := by
  rw [(C60_evaluate_errors x now m r offer asm doc options _).2
    (.aud o jwt hc ho ht hj htyp hn hcl ha)]
  exact ⟨_, rfl, rfl, _, rfl, .swap ..⟩

/-- The JWT is meant for another issuer. -/
example : ∃ i, reportOf (·.information Ex.ext) (CredentialIssuer.evaluateCredentialRequest Ex.ext 1000
      { Ex.metadata with credentialIssuer := str! "https://other" }
      Ex.request (some Ex.pinOffer) none (some Ex.didDoc) Ex.options) = some i ∧
    i.code = 101 ∧ Details i [(str! "expected_aud_in_jwt", .str (str! "https://other")),
      (str! "actual_aud_in_jwt", .str Ex.plainBody.audience)] :=
  C62_audience Ex.ext 1000 { Ex.metadata with credentialIssuer := str! "https://other" } Ex.request (some Ex.pinOffer)
    none (some Ex.didDoc) Ex.options Ex.pinOffer _ ⟨Ex.distinct_metadata, by simp, rfl⟩ rfl
    (by rintro c ⟨⟩; exact ⟨by decide +kernel, by decide +kernel⟩)
    ⟨_, rfl, Ex.fromStr_request⟩ Ex.bound.typ (by decide +kernel) Ex.bound.iss (by decide +kernel)

/-- C62. A malformed JWT: the report has the message, in evaluation and pre-evaluation. -/
theorem C62_malformed (p : CredentialRequestProof) (msg : Str) (hc : Configured m offer asm)
    (ht : Timely now options) (hp : r.proof = some p) (hf : ProofJwt.fromStr x p.jwt = .err (.any msg)) :
    ∃ i, reportOf (·.information x)
        (evaluateCredentialRequest x now m r offer asm doc options) = some i ∧ i.code = 100 ∧
      Details i [(str! "validation_message", .str msg)] := by
  rw [(C60_evaluate_errors x now m r offer asm doc options _).2 (.malformed p _ hc ht hp hf)]
  exact ⟨_, rfl, rfl, _, rfl, .refl _⟩

/-- A proof without dots. -/
example : ∃ i, reportOf (·.information Ex.ext) (CredentialIssuer.evaluateCredentialRequest Ex.ext 1000
      Ex.metadata ⟨Ex.mdoc, some ⟨str! "jwt", str! "e30"⟩⟩ (some Ex.pinOffer) none none none) = some i ∧
    i.code = 100 ∧ Details i [(str! "validation_message", .str (str! "No body found in the `JWT`"))] :=
  C62_malformed Ex.ext 1000 Ex.metadata ⟨Ex.mdoc, some ⟨str! "jwt", str! "e30"⟩⟩ (some Ex.pinOffer) none none none _ _
    ⟨Ex.distinct_metadata, by simp, rfl⟩ (by rintro c ⟨⟩) rfl (by decide +kernel)

end

/-- C62. An unknown id: the report names the first unknown id of the list. -/
theorem C62_unknown_id (x : Ext) (m : CredentialIssuerMetadata) (cs : CredentialOrIds)
    (endpoint : Option Str) (p : Option PreAuthorizedCodeFlow)
    (hd : DistinctIds m.credentialsSupported) (id : Str) (hu : FirstUnknown m cs id) :
    ∃ i, reportOf (·.information x)
        (CredentialIssuer.createOffer m cs endpoint none p) = some i ∧ i.code = 103 ∧
      i.description = str! "The id `" ++ id
        ++ str! "` does not refer to a credential format inside the issuer metadata" ∧
      Details i [(str! "id", .str id)] := by
  rw [(C12_create_offer m cs endpoint none p).2.2.2.2 hd rfl id hu]
  exact ⟨_, rfl, rfl, rfl, _, rfl, .refl _⟩

/-- C62. A pre-authorized token request with the right PIN, or without PIN, that does not fit the
offer: the report says whether a PIN is required and whether the code is right. -/
theorem C62_token_values (code : Str) (pin : Option UInt64) (o : CredentialOffer)
    (p : PreAuthorizedCodeFlow) (options : Option EvaluateAccessTokenRequestOptions)
    (hg : o.grants = ⟨none, some p⟩)
    (hpin : ∀ n, pin = some n → AtMostDigits 9 n.toNat ∧ expectedPin options = some n)
    (hbad : code ≠ p.code ∨ ¬ (pin ≠ none ↔ p.userPinRequired = some true)) :
    ∃ i, reportOf (·.information)
        (AccessToken.evaluateAccessTokenRequest ⟨.preAuthorizedCodeFlow code pin⟩ (some o) options)
          = some i ∧ i.code = 404 ∧
      Details i [(str! "should_pin_be_supplied", .bool (decide (p.userPinRequired = some true))),
        (str! "does_code_match", .bool (decide (code = p.code)))] := by
  have h := ((C07_decision_table ⟨.preAuthorizedCodeFlow code pin⟩ (some o) options).2 code pin
    rfl).2 fun n hn => (hpin n hn).1
  have ht : grantTable code pin (some o) (expectedPin options) = some
      (.invalidPreAuthorizedCodeFlowValues (decide (p.userPinRequired = some true))
        (decide (code = p.code))) := by
    have h1 : ¬ (pin ≠ none ∧ expectedPin options = none) := by
      rintro ⟨h, h'⟩
      cases pin with
      | none => exact h rfl
      | some n => rw [(hpin n rfl).2] at h'; cases h'
    have h2 : ¬ (pin ≠ none ∧ pin ≠ expectedPin options) := by
      rintro ⟨h, h'⟩
      cases pin with
      | none => exact h rfl
      | some n => exact h' (hpin n rfl).2.symm
    simp only [grantTable, hg, preTable, firstRow, h1, h2, decide_false, Bool.false_eq_true, if_false]
    by_cases hcode : code = p.code
    · have h3 := hbad.resolve_left (fun h => h hcode)
      simp [hcode, h3]
    · simp [hcode, Ne.symm hcode]
  rw [ht] at h
  simp only at h
  rw [h]
  exact ⟨_, rfl, rfl, _, rfl, .swap ..⟩

/-- A wrong code, with the PIN. -/
example : ∃ i, reportOf (·.information) (AccessToken.evaluateAccessTokenRequest
      ⟨.preAuthorizedCodeFlow (str! "kode") (some 7)⟩ (some Ex.pinOffer) (some ⟨some 7⟩)) = some i ∧ i.code = 404 ∧
    Details i [(str! "should_pin_be_supplied", .bool true), (str! "does_code_match", .bool false)] :=
  C62_token_values (str! "kode") (some 7) Ex.pinOffer _ (some ⟨some 7⟩) rfl
    (by rintro n ⟨⟩; exact ⟨by rw [atMostDigits_iff]; decide, rfl⟩) (.inl (by decide))

/-- C62. The JSON of a report: code, name, description and the additional information, each once. -/
theorem C62_serialised (x : Ext) (a : AnyError) :
    ∃ kvs d, (a.information x).ser = .obj kvs ∧ (a.information x).additionalInformation = some d ∧
      kvs.map Prod.fst = [str! "code", str! "name", str! "description", str! "additional_information"] ∧
      members (str! "code") (.obj kvs) = [.num (a.information x).code.toNat] ∧
      members (str! "name") (.obj kvs) = [.str (a.information x).name] ∧
      members (str! "description") (.obj kvs) = [.str (a.information x).description] ∧
      members (str! "additional_information") (.obj kvs) = [d] := by
  cases a <;> exact ⟨_, _, rfl, rfl, rfl, rfl, rfl, rfl, rfl⟩

example : ∃ i, reportOf (·.information Ex.ext)
    (CredentialIssuer.evaluateCredentialRequest Ex.ext 101000000000 Ex.metadata Ex.request
      (some Ex.pinOffer) none none (some ⟨some ⟨100, str! "nonce", 0⟩, none⟩)) = some i ∧
    i.code = 111 := by
  obtain ⟨i, h, hc, -⟩ := C62_expired Ex.ext 101000000000 Ex.metadata Ex.request (some Ex.pinOffer)
    none none (some ⟨some ⟨100, str! "nonce", 0⟩, none⟩) ⟨100, str! "nonce", 0⟩
    ⟨Ex.distinct_metadata, by simp, rfl⟩ rfl (by decide +kernel) (by decide +kernel)
  exact ⟨i, h, hc⟩

example : FirstUnknown Ex.metadata [.credentialId (str! "no such id")] (str! "no such id") :=
  ⟨[], [], rfl, by simp, by simp [KnownId, Ex.metadata, Ex.entry]⟩

end Oid4vci
