import Verif.Lemmas.Bounded
import Verif.Props.Document
import Verif.Props.Instant
import Verif.Props.Claims
import Verif.Props.JwtText

/-!
The reply to every rejected credential request is bounded by the proof that was sent and the issuer's own values (C148).
-/

namespace Oid4vci

open Spec Serde CredentialIssuer

theorem error_display (code : UInt32) (name desc : Str) (j : Json) :
    (ErrorInformation.new code name desc (some j)).display.length ≤
      code.toNat + 6 * name.length + 6 * desc.length + j.print.length + 100 := by
  have h1 := printStr_length name
  have h2 := printStr_length desc
  have h3 : (Json.printInt (code.toNat : Int)).length ≤ code.toNat + 1 := printNat_length _
  have h4 : (Json.printStr (str! "name") ++ Json.printStr (str! "code") ++ Json.printStr (str! "description") ++
    Json.printStr (str! "additional_information")).length ≤ 60 := by decide +kernel
  simp only [List.length_append] at h4
  simp only [ErrorInformation.display, ErrorInformation.new, ErrorInformation.ser, skipNone, List.cons_append,
    List.nil_append, id, Json.print, Json.printMembers, List.length_append, List.length_cons, List.length_nil]
  omega

theorem issuer_display (x : Ext) (e : CredentialIssuerError) : (e.information x).display.length ≤
    6 * (e.description x).length + (value (e.ser x)).print.length + 480 := by
  have h1 := error_display e.code e.name (e.description x) (value (e.ser x))
  have h2 : e.name.length ≤ 44 := by cases e <;> simp [CredentialIssuerError.name]
  have h3 : e.code.toNat ≤ 112 := by cases e <;> simp [CredentialIssuerError.code]
  show (ErrorInformation.new e.code e.name (e.description x) (some (value (e.ser x)))).display.length ≤ _
  omega

theorem one_member (a : Str) (u : Json) (hu : value u = u) :
    (value (.obj [(a, u)])).print.length ≤ 6 * a.length + u.print.length + 5 := by
  have h1 := printStr_length a
  simp only [Serde.value, valueEntries, binsert, hu, Json.print, Json.printMembers, List.length_append, List.length_cons,
    List.length_nil]
  omega

theorem two_members (a b : Str) (u v : Json) (hu : value u = u) (hv : value v = v) :
    (value (.obj [(a, u), (b, v)])).print.length ≤
      6 * a.length + 6 * b.length + u.print.length + v.print.length + 9 := by
  have h1 := printStr_length a
  have h2 := printStr_length b
  simp only [Serde.value, valueEntries, binsert, hu, hv]
  split
  · simp only [Json.print, Json.printMembers, List.length_append, List.length_cons, List.length_nil]
    omega
  split
  all_goals
    simp only [Json.print, Json.printMembers, List.length_append, List.length_cons, List.length_nil]
    omega

theorem strValue (s : Str) : value (.str s) = .str s := rfl

theorem optValue (o : Option Str) : value (serOpt .str o) = serOpt .str o := by cases o <;> rfl

theorem optPrint (o : Option Str) : (serOpt Json.str o).print.length ≤ 6 * o.elim 0 List.length + 4 := by
  cases o with
  | none => simp [serOpt, Json.print]
  | some s =>
    have := printStr_length s
    simp only [serOpt, Json.print, Option.elim]
    omega

/-! ### The proof, written out again -/

theorem alg_print (a : ProofJwtAlgorithm) : a.ser.print.length ≤ 20 := by cases a <;> decide +kernel

theorem header_print {n : Nat} {h : ProofJwtHeader} (h1 : h.typ.length ≤ n)
    (h2 : ∀ a, h.additionalHeader = some a → a.text.length ≤ n) : h.ser.print.length ≤ 12 * n + 100 := by
  obtain ⟨typ, alg, add⟩ := h
  have p1 := printStr_length typ
  have p2 := alg_print alg
  have p3 : (Json.printStr (str! "typ") ++ Json.printStr (str! "alg") ++ Json.printStr (str! "kid") ++
    Json.printStr (str! "jwk") ++ Json.printStr (str! "x5c")).length ≤ 25 := by decide +kernel
  simp only [List.length_append] at p3
  dsimp only at h1
  cases add with
  | none =>
    simp only [ProofJwtHeader.ser, Option.map_none, Option.toList_none, List.append_nil, Json.print, Json.printMembers,
      List.length_append, List.length_cons, List.length_nil]
    omega
  | some a =>
    have p4 := printStr_length a.text
    have p5 := h2 a rfl
    cases a
    all_goals
      simp only [ProofJwtHeader.ser, Option.map_some, Option.toList_some, ProofJwtAdditionalHeader.member,
        ProofJwtAdditionalHeader.text, List.cons_append, List.nil_append, Json.print, Json.printMembers,
        List.length_append, List.length_cons, List.length_nil] at *
      omega

/-- The members with their commas. -/
def membersLength (kvs : List (Str × Json)) : Nat :=
  (kvs.map fun kv => 6 * kv.1.length + kv.2.print.length + 4).sum

theorem printMembers_length (kvs : List (Str × Json)) : (Json.printMembers kvs).length ≤ membersLength kvs + 1 := by
  induction kvs with
  | nil => simp [Json.printMembers, membersLength]
  | cons kv kvs ih =>
    obtain ⟨k, v⟩ := kv
    have := printStr_length k
    simp only [membersLength] at ih
    simp only [Json.printMembers, membersLength, List.map_cons, List.sum_cons, List.length_append, List.length_cons]
    omega

theorem obj_length (kvs : List (Str × Json)) : (Json.obj kvs).print.length ≤ membersLength kvs + 2 := by
  cases kvs with
  | nil => simp [Json.print, membersLength]
  | cons kv kvs =>
    obtain ⟨k, v⟩ := kv
    have := printStr_length k
    have h := printMembers_length kvs
    simp only [membersLength] at h
    simp only [Json.print, membersLength, List.map_cons, List.sum_cons, List.length_append, List.length_cons]
    omega

theorem membersLength_append (a b : List (Str × Json)) : membersLength (a ++ b) = membersLength a + membersLength b := by
  simp [membersLength]

theorem skipped_length {α : Type} (k : Str) (f : α → Json) (o : Option α) {n : Nat}
    (h : ∀ a, o = some a → (f a).print.length ≤ n) : membersLength (skipNone k f o) ≤ 6 * k.length + n + 4 := by
  cases o with
  | none => simp [skipNone, membersLength]
  | some a =>
    have := h a rfl
    simp only [skipNone, membersLength, List.map_cons, List.map_nil, List.sum_cons, List.sum_nil]
    omega

theorem body_print {x : Ext} {n K : Nat} {b : ProofJwtBody} (h : ShortBody x n K b) :
    (b.ser x).print.length ≤ 42 * n + 18 * K + 300 := by
  have p1 := skipped_length (str! "iss") Json.str b.issuer (n := 6 * n + 2) fun a ha => by
    have := printStr_length a
    have := h.issuer a ha
    simp only [Json.print]
    omega
  have p2 := skipped_length (str! "nbf") (serTime x) b.notBefore (n := 6 * n + 6 * K + 2) fun a ha => by
    have := printStr_length (x.showTime a)
    have := h.notBefore a ha
    simp only [serTime, Json.print]
    omega
  have p3 := skipped_length (str! "exp") (serTime x) b.expiresAt (n := 6 * n + 6 * K + 2) fun a ha => by
    have := printStr_length (x.showTime a)
    have := h.expiresAt a ha
    simp only [serTime, Json.print]
    omega
  have p4 := printStr_length b.audience
  have p5 := optPrint b.subject
  have p6 := printStr_length (x.showTime b.issuedAt)
  have p7 := printStr_length b.nonce
  have q4 := h.audience
  have q6 := h.issuedAt
  have q7 := h.nonce
  have q5 : b.subject.elim 0 List.length ≤ n := by
    cases hs : b.subject with
    | none => exact Nat.zero_le _
    | some v => exact h.subject v hs
  have p := obj_length (skipNone (str! "iss") .str b.issuer
    ++ [(str! "aud", .str b.audience), (str! "sub", serOpt .str b.subject),
        (str! "iat", serTime x b.issuedAt), (str! "nonce", .str b.nonce)]
    ++ skipNone (str! "nbf") (serTime x) b.notBefore
    ++ skipNone (str! "exp") (serTime x) b.expiresAt)
  have pm : membersLength [(str! "aud", .str b.audience), (str! "sub", serOpt .str b.subject),
        (str! "iat", serTime x b.issuedAt), (str! "nonce", .str b.nonce)] ≤ 24 * n + 6 * K + 120 := by
    simp only [membersLength, List.map_cons, List.map_nil, List.sum_cons, List.sum_nil, List.length_cons, List.length_nil,
      serTime, Json.print] at *
    omega
  simp only [membersLength_append] at p
  simp only [List.length_cons, List.length_nil] at p1 p2 p3
  show (Json.obj _).print.length ≤ _
  omega

theorem toStr_length {x : Ext} {n K : Nat} {j : ProofJwt} (h1 : j.header.typ.length ≤ n)
    (h2 : ∀ a, j.header.additionalHeader = some a → a.text.length ≤ n) (h3 : ShortBody x n K j.body)
    (h4 : ∀ v, j.signature = some v → v.length ≤ n) : (j.toStr x).length ≤ 55 * n + 18 * K + 410 := by
  have p1 := header_print h1 h2
  have p2 := body_print h3
  unfold ProofJwt.toStr
  cases hs : j.signature with
  | none =>
    simp only [Option.toList_none, List.append_nil, joinWith, List.length_append, List.length_cons]
    omega
  | some v =>
    have := h4 v hs
    simp only [Option.toList_some, List.cons_append, List.nil_append, joinWith, List.length_append, List.length_cons]
    omega

/-! ### The replies -/

/-- The message for a text that is no key proof. -/
theorem malformed_length {x : Ext} {K : Nat} (hx : Restrained x K) {s m : Str}
    (h : ProofJwt.fromStr x s = .err (.any m)) : m.length ≤ 11 * (utf8Encode s).length + K + 30 := by
  unfold ProofJwt.fromStr at h
  split at h
  · cases h; simp
  · cases h; simp
  · rename_i header body rest hs
    obtain ⟨h1, h2⟩ := segment_length hs
    have u1 := Reading.utf8_length header
    have u2 := Reading.utf8_length body
    simp only at h
    split at h
    · cases h
      have := hx.base64 header
      omega
    · rename_i hb e1
      have d1 := decoded_length e1
      split at h
      · cases h
        have := hx.base64 body
        omega
      · rename_i bb e2
        have d2 := decoded_length e2
        split at h
        · cases h
          have := hx.header hb
          omega
        · split at h
          · cases h
            have := hx.body bb
            omega
          · cases h

theorem validation_reply (x : Ext) (m : Str) :
    ((CredentialIssuerError.validationError (.any m)).information x).display.length ≤ 6 * m.length + 300 :=
  validation_display x m

/-- What the two variable texts of an error in a proof come to. -/
theorem jwt_display (x : Ext) (e : JwtError) {d j : Nat} (hd : (e.description x).length ≤ d)
    (hj : (value (e.ser x)).print.length ≤ j) :
    ((CredentialIssuerError.jwtError e).information x).display.length ≤ 6 * d + j + 480 := by
  have := issuer_display x (.jwtError e)
  simp only [CredentialIssuerError.description, CredentialIssuerError.ser] at this
  omega

theorem unusable_length {x : Ext} {n : Nat} {k : Jwk} {e : JwtError} (h : KeyUnusable k e)
    (ha : ∀ a, k.algorithm = some a → a.name.length ≤ n) :
    ((CredentialIssuerError.jwtError e).information x).display.length ≤ 72 * n + 1500 := by
  have hr : (reportedAlg k).length ≤ 6 * n + 26 := by
    have := printStr_length (match k.algorithm with
      | some a => a.name
      | none => str! "none")
    unfold reportedAlg
    cases hk : k.algorithm with
    | none => simp only [hk, List.length_cons, List.length_nil] at *; omega
    | some a => have := ha a hk; simp only [hk] at *; omega
  have hu : ((CredentialIssuerError.jwtError (.unsupportedAlgorithm (reportedAlg k))).information x).display.length ≤
      72 * n + 1500 := by
    have p := printStr_length (reportedAlg k)
    have q := one_member (str! "algorithm") (.str (reportedAlg k)) rfl
    simp only [Json.print, List.length_cons, List.length_nil] at q
    refine (jwt_display x _ (d := (reportedAlg k).length + 60) (j := 6 * (reportedAlg k).length + 70) ?_ ?_).trans ?_
    · simp [JwtError.description]
    · simp only [JwtError.ser]; omega
    · omega
  cases h with
  | symmetricOrRsa => exact hu
  | notEdDSA => exact hu
  | noX =>
    refine (jwt_display x _ (d := 60) (j := 10) ?_ ?_).trans ?_
    · simp [JwtError.description]
    · simp [JwtError.ser, Serde.value, Json.print]
    · omega

theorem didSyntax_length {x : Ext} {K n : Nat} (hx : Restrained x K) {kid msg : Str} (hk : kid.length ≤ n)
    (h : x.didUrl kid = .error msg) :
    ((CredentialIssuerError.jwtError (.unableToTransformIntoDid kid msg)).information x).display.length ≤
      72 * n + 6 * K + 1500 := by
  have hm := hx.didMessage kid msg h
  have p1 := printStr_length kid
  have p2 := printStr_length msg
  have q := two_members (str! "kid") (str! "message") (.str kid) (.str msg) rfl rfl
  simp only [Json.print, List.length_cons, List.length_nil] at q
  refine (jwt_display x _ (d := 80) (j := 72 * n + 6 * K + 100) ?_ ?_).trans ?_
  · simp [JwtError.description]
  · simp only [JwtError.ser]; omega
  · omega

theorem keyType_length (x : Ext) {n : Nat} {name k : Str} (hn : name.length ≤ 3) (hk : k.length ≤ n) :
    ((CredentialIssuerError.jwtError (.unsupportedKeyTypeInJwtHeader name k)).information x).display.length ≤
      12 * n + 1500 := by
  have p1 := printStr_length name
  have p2 := printStr_length k
  have q := two_members (str! "key_name") (str! "key_type") (.str name) (.str k) rfl rfl
  simp only [Json.print, List.length_cons, List.length_nil] at q
  refine (jwt_display x _ (d := n + 60) (j := 6 * n + 140) ?_ ?_).trans ?_
  · simp [JwtError.description]; omega
  · simp only [JwtError.ser]; omega
  · omega

theorem key_length {x : Ext} {K n : Nat} (hx : Restrained x K) {h : ProofJwtHeader} {doc : Option x.Doc} {e : JwtError}
    (hr : KeyRejected x h doc e) (hk : ∀ a, h.additionalHeader = some a → a.text.length ≤ n) :
    ((CredentialIssuerError.jwtError e).information x).display.length ≤ 84 * n + 72 * K + 1800 := by
  cases hr with
  | noKey _ =>
    refine (jwt_display x _ (d := 60) (j := 10) ?_ ?_).trans ?_
    · simp [JwtError.description]
    · simp [JwtError.ser, Serde.value, Json.print]
    · omega
  | x5c k hh =>
    have := keyType_length x (name := str! "x5c") (by decide) (hk _ hh)
    simp only [ProofJwtAdditionalHeader.text] at this
    omega
  | jwkSyntax k msg hh hp =>
    have hl : k.length ≤ n := hk _ hh
    have hm := hx.jwkMessage k msg hp
    have p1 := printStr_length k
    have p2 := printStr_length msg
    have q := two_members (str! "original_string") (str! "serde_message") (.str k) (.str msg) rfl rfl
    simp only [Json.print, List.length_cons, List.length_nil] at q
    refine (jwt_display x _ (d := n + 60) (j := 72 * n + 6 * K + 200) ?_ ?_).trans ?_
    · simp [JwtError.description]; omega
    · simp only [JwtError.ser]; omega
    · omega
  | jwkUnusable k jwk e hh hp hu =>
    have hl : k.length ≤ n := hk _ hh
    have := unusable_length (x := x) (n := n + K) hu fun a ha => by
      have := hx.jwk k jwk a hp ha
      omega
    omega
  | kidSyntax kid msg hh hp =>
    have := didSyntax_length hx (show kid.length ≤ n from hk _ hh) hp
    omega
  | noDocument kid url hh hp hd =>
    refine (jwt_display x _ (d := 60) (j := 10) ?_ ?_).trans ?_
    · simp [JwtError.description]
    · simp [JwtError.ser, Serde.value, Json.print]
    · omega
  | notInDocument kid url d msg hh hp hd hs =>
    have hl : kid.length ≤ n := hk _ hh
    have hm := hx.selectMessage kid url d msg hp hs
    have hu := hx.did kid url hp
    have p1 := printStr_length (x.didUrlDisplay url)
    have p2 := printStr_length msg
    have q := two_members (str! "did") (str! "message") (.str (x.didUrlDisplay url)) (.str msg) rfl rfl
    simp only [Json.print, List.length_cons, List.length_nil] at q
    refine (jwt_display x _ (d := 80) (j := 72 * n + 12 * K + 100) ?_ ?_).trans ?_
    · simp [JwtError.description]
    · simp only [JwtError.ser]; omega
    · omega
  | notAJwk kid url d vm msg hh hp hd hs hg =>
    have hm := hx.methodMessage vm msg hg
    have p2 := printStr_length msg
    have q := one_member (str! "messsage") (.str msg) rfl
    simp only [Json.print, List.length_cons, List.length_nil] at q
    refine (jwt_display x _ (d := 60) (j := 6 * K + 100) ?_ ?_).trans ?_
    · simp [JwtError.description]
    · simp only [JwtError.ser]; omega
    · omega
  | kidUnusable kid url d vm jwk e hh hp hd hs hg hu =>
    have := unusable_length (x := x) (n := K) hu fun a ha => hx.method vm jwk a hg ha
    omega

theorem carried_short {x : Ext} {K : Nat} (hx : Restrained x K) {r : CredentialRequest} {j : ProofJwt}
    (h : Carries x r j) :
    j.header.typ.length ≤ sentLength r ∧
    (∀ a, j.header.additionalHeader = some a → a.text.length ≤ sentLength r) ∧
    ShortBody x (sentLength r) K j.body ∧ ∀ v, j.signature = some v → v.length ≤ sentLength r := by
  obtain ⟨p, hp, hj⟩ := h
  have hs : sentLength r = (utf8Encode p.jwt).length := by rw [sentLength, hp]
  rw [hs]
  exact jwt_short hx hj

theorem plain_display (x : Ext) (e : CredentialIssuerError) (hd : (e.description x).length ≤ 100)
    (hs : e.ser x = .null) : (e.information x).display.length ≤ 1100 := by
  have := issuer_display x e
  rw [hs] at this
  simp only [Serde.value, Json.print, List.length_cons, List.length_nil] at this
  omega

theorem time_own (x : Ext) (now : Time) (m : CredentialIssuerMetadata) {options : Option EvaluateCredentialRequestOptions}
    {c : CNonceOptions} (h : nonceOptions options = some c) :
    (x.showTime now).length + (x.dispTime now).length + (x.showTime (nonceExpiry c)).length +
      (x.dispTime (nonceExpiry c)).length + c.expectedCNonce.length ≤ ownLength x now m options := by
  unfold ownLength
  rw [h]
  simp only [Option.elim]
  omega

theorem client_own (x : Ext) (now : Time) (m : CredentialIssuerMetadata)
    (options : Option EvaluateCredentialRequestOptions) :
    (clientId options).elim 0 List.length ≤ ownLength x now m options ∧
    m.credentialIssuer.length ≤ ownLength x now m options := by
  unfold ownLength
  omega

theorem nonce_own (x : Ext) (now : Time) (m : CredentialIssuerMetadata)
    (options : Option EvaluateCredentialRequestOptions) :
    (expectedNonce options).elim 0 List.length ≤ ownLength x now m options := by
  unfold expectedNonce
  cases h : nonceOptions options with
  | none => exact Nat.zero_le _
  | some c =>
    have := time_own x now m h
    simp only [Option.elim]
    omega

/-- C148: the reply to a rejected credential request. -/
theorem C148_evaluate {x : Ext} {K : Nat} (hx : Restrained x K) (now : Time) (m : CredentialIssuerMetadata)
    (r : CredentialRequest) (offer : Option CredentialOffer) (asm : Option AuthorizationServerMetadata)
    (doc : Option x.Doc) (options : Option EvaluateCredentialRequestOptions) {e : CredentialIssuerError}
    (h : evaluateCredentialRequest x now m r offer asm doc options = .err e) :
    (e.information x).display.length ≤ 330 * sentLength r + 6 * ownLength x now m options + 108 * K + 3500 := by
  cases (C60_evaluate_errors x now m r offer asm doc options e).1 h with
  | ids _ =>
    have := validation_reply x (str! "Ids in supported credentials of the issuer metadata are not unique")
    simp only [List.length_cons, List.length_nil] at this
    omega
  | noOffer _ _ =>
    have := plain_display x .credentialOfferMustBeSupplied (by simp [CredentialIssuerError.description]) rfl
    omega
  | server _ _ _ =>
    have := plain_display x .authorizationServerMetadataNotSupported (by simp [CredentialIssuerError.description]) rfl
    omega
  | noProof _ _ _ =>
    have := plain_display x .noProofInCredentialRequest (by simp [CredentialIssuerError.description]) rfl
    omega
  | expired c _ hc _ _ =>
    have ho := time_own x now m hc
    have hi := issuer_display x (.cNonceIsExpired now (nonceExpiry c))
    have p1 := printStr_length (x.showTime now)
    have p2 := printStr_length (x.showTime (nonceExpiry c))
    have q := two_members (str! "now") (str! "expiry_timestamp") (.str (x.showTime now)) (.str (x.showTime (nonceExpiry c)))
      rfl rfl
    simp only [Json.print, List.length_cons, List.length_nil] at q
    simp only [CredentialIssuerError.description, CredentialIssuerError.ser, List.length_append, List.length_cons,
      List.length_nil] at hi
    omega
  | malformed p e _ _ hp hf =>
    obtain ⟨t⟩ := e
    have hm := malformed_length hx hf
    have := validation_reply x t
    have hs : sentLength r = (utf8Encode p.jwt).length := by rw [sentLength, hp]
    omega
  | typ _ _ _ _ _ =>
    have := validation_reply x (str! "jwt header `typ` MUST of of value `openid4vci-proof+jwt`")
    simp only [List.length_cons, List.length_nil] at this
    omega
  | nonce jwt _ _ hc _ _ =>
    have hn := (carried_short hx hc).2.2.1.nonce
    have ho := nonce_own x now m options
    have p1 := optPrint (expectedNonce options)
    have p2 := printStr_length jwt.body.nonce
    have q := two_members (str! "expected_nonce") (str! "actual_nonce") (serOpt .str (expectedNonce options))
      (.str jwt.body.nonce) (optValue _) rfl
    simp only [Json.print, List.length_cons, List.length_nil] at q
    refine (jwt_display x _ (d := 60) (j := 6 * ownLength x now m options + 6 * sentLength r + 200) ?_ ?_).trans ?_
    · simp [JwtError.description]
    · simp only [JwtError.ser]; omega
    · omega
  | client o jwt _ _ _ hc _ _ _ =>
    have hb := (carried_short hx hc).2.2.1
    have hn : jwt.body.issuer.elim 0 List.length ≤ sentLength r := by
      cases hs : jwt.body.issuer with
      | none => exact Nat.zero_le _
      | some v => exact hb.issuer v hs
    have ho := (client_own x now m options).1
    have p1 := optPrint (clientId options)
    have p2 := optPrint jwt.body.issuer
    have q := two_members (str! "expected_iss_in_jwt") (str! "actual_iss_in_jwt") (serOpt .str (clientId options))
      (serOpt .str jwt.body.issuer) (optValue _) (optValue _)
    simp only [List.length_cons, List.length_nil] at q
    refine (jwt_display x _ (d := 60) (j := 6 * ownLength x now m options + 6 * sentLength r + 260) ?_ ?_).trans ?_
    · simp [JwtError.description]
    · simp only [JwtError.ser]; omega
    · omega
  | aud o jwt _ _ _ hc _ _ _ _ =>
    have hn := (carried_short hx hc).2.2.1.audience
    have ho := (client_own x now m options).2
    have p1 := printStr_length m.credentialIssuer
    have p2 := printStr_length jwt.body.audience
    have q := two_members (str! "expected_aud_in_jwt") (str! "actual_aud_in_jwt") (.str m.credentialIssuer)
      (.str jwt.body.audience) rfl rfl
    simp only [Json.print, List.length_cons, List.length_nil] at q
    refine (jwt_display x _ (d := 80) (j := 6 * ownLength x now m options + 6 * sentLength r + 260) ?_ ?_).trans ?_
    · simp [JwtError.description]
    · simp only [JwtError.ser]; omega
    · omega
  | key o jwt e ha hk =>
    have := key_length hx hk (carried_short hx ha.carries).2.1
    omega
  | signature o jwt ha _ _ =>
    obtain ⟨h1, h2, h3, h4⟩ := carried_short hx ha.carries
    have hl := toStr_length h1 h2 h3 h4
    have p := printStr_length (jwt.toStr x)
    have q := one_member (str! "jwt") (.str (jwt.toStr x)) rfl
    simp only [Json.print, List.length_cons, List.length_nil] at q
    refine (jwt_display x _ (d := 60) (j := 330 * sentLength r + 108 * K + 2500) ?_ ?_).trans ?_
    · simp [JwtError.description]
    · simp only [JwtError.ser]; omega
    · omega
  | inlineKey o jwt k ha _ _ hh =>
    have := keyType_length x (name := str! "jwk") (by decide) ((carried_short hx ha.carries).2.1 _ hh)
    simp only [ProofJwtAdditionalHeader.text] at this
    omega

/-- C148: the reply to a request that is rejected before it is evaluated. -/
theorem C148_pre {x : Ext} {K : Nat} (hx : Restrained x K) (r : CredentialRequest) {e : CredentialIssuerError}
    (h : preEvaluateCredentialRequest x r = .err e) :
    (e.information x).display.length ≤ 72 * sentLength r + 6 * K + 1500 := by
  cases (C60_pre_evaluate_errors x r e).1 h with
  | proofType p _ _ =>
    have := validation_reply x (str! "`proof_type` MUST of of value `JWT`")
    simp only [List.length_cons, List.length_nil] at this
    omega
  | malformed p e hp _ hf =>
    obtain ⟨t⟩ := e
    have hm := malformed_length hx hf
    have := validation_reply x t
    have hs : sentLength r = (utf8Encode p.jwt).length := by rw [sentLength, hp]
    omega
  | typ p _ _ _ _ _ =>
    have := validation_reply x (str! "jwt header `typ` MUST of of value `openid4vci-proof+jwt`")
    simp only [List.length_cons, List.length_nil] at this
    omega
  | did p jwt e hp _ hf _ hd =>
    have hk := (carried_short hx ⟨p, hp, hf⟩).2.1
    cases hd with
    | kidSyntax kid msg hh hm => exact didSyntax_length hx (show kid.length ≤ _ from hk _ hh) hm
    | jwk k hh =>
      have := keyType_length x (name := str! "jwk") (by decide) (hk _ hh)
      simp only [ProofJwtAdditionalHeader.text] at this
      omega
    | x5c k hh =>
      have := keyType_length x (name := str! "x5c") (by decide) (hk _ hh)
      simp only [ProofJwtAdditionalHeader.text] at this
      omega

/-! ### The libraries -/

theorem fixed_length (w : Nat) : ∀ n, (Chrono.fixed w n).length = w := by
  induction w with
  | zero => intro n; rfl
  | succ w ih => intro n; simp [Chrono.fixed, ih]

theorem showYear_length {y : Int} (h1 : -262144 ≤ y) (h2 : y ≤ 262143) : (Chrono.showYear y).length ≤ 7 := by
  unfold Chrono.showYear
  split
  · rw [fixed_length]; omega
  · simp only [List.length_cons]
    split
    · simp [fixed_length]
    · have h : (Json.natDigits y.natAbs).length ≤ 6 := Reading.natDigits_length (k := 5) (by omega)
      omega

theorem showFraction_length (n : Nat) : (Chrono.showFraction n).length ≤ 10 := by
  unfold Chrono.showFraction
  repeat' split
  all_goals simp [fixed_length]

/-- C148: the texts of an instant. -/
theorem C148_times (t : Time) (h : Time.Valid t) :
    (Chrono.showTime t).length ≤ 33 ∧ (Chrono.dispTime t).length ≤ 36 := by
  obtain ⟨h1, h2⟩ := Chrono.year_valid t h
  have p1 := showYear_length h1 h2
  have p2 := showFraction_length (t % 1000000000).toNat
  constructor
  all_goals
    simp only [Chrono.showTime, Chrono.dispTime, List.length_append, List.length_cons, List.length_nil, fixed_length]
    omega

/-- The longest text there is. -/
example : (Chrono.showTime (-8334601228799999999999)).length = 33 := by decide +kernel
example : Time.Valid (-8334601228799999999999) := by decide

/-- C148: the modelled libraries are restrained, if those for keys are. -/
theorem C148_library (x : Ext) (rules : SelectRules) {T : Reading.Texts} (hT : T.timeExpected.length ≤ 200) (plain : Char → Bool)
    {K : Nat} (hK : 4100 ≤ K) (h1 : ∀ vm msg, x.getJwk vm = .error msg → msg.length ≤ K)
    (h2 : ∀ vm k a, x.getJwk vm = .ok k → k.algorithm = some a → a.name.length ≤ K)
    (h3 : ∀ s msg, x.parseJwk s = .error msg → msg.length ≤ 11 * s.length + K)
    (h4 : ∀ s k a, x.parseJwk s = .ok k → k.algorithm = some a → a.name.length ≤ s.length + K) :
    Restrained (withJson (withBase64 (withDocuments rules (withChrono x))) ((withTimes T).withDebug plain)) K where
  base64 s := by
    have := base64Msg_length (withDocuments rules (withChrono x)) s
    show ((withBase64 (withDocuments rules (withChrono x))).base64Msg s).length ≤ _
    omega
  header b := by
    show ((headerReport ((withTimes T).withDebug plain) b).getD []).length ≤ _
    cases hr : headerReport ((withTimes T).withDebug plain) b with
    | none => simp
    | some text =>
      have := C137_header hT plain hr
      show text.length ≤ _
      omega
  body b := by
    show ((bodyReport (withBase64 (withDocuments rules (withChrono x))) ((withTimes T).withDebug plain) b).getD []).length ≤ _
    cases hr : bodyReport (withBase64 (withDocuments rules (withChrono x))) ((withTimes T).withDebug plain) b with
    | none => simp
    | some text =>
      have := C137_body _ hT plain hr
      show text.length ≤ _
      omega
  time s t h := by
    obtain ⟨_, _, _, _, _, _, _, _, _, _, _, _, _, _, _, _, _, _, _, _, _, _, _, _, hv⟩ := (C74_exact s t).1 h
    have := (C148_times t hv).1
    show (Chrono.showTime t).length ≤ _
    omega
  didMessage s msg h := by
    have h : Did.parse s = .error msg := h
    unfold Did.parse at h
    simp only at h
    split at h
    · cases h
    · cases h
      simp only [List.length_cons, List.length_nil]
      omega
  did s url h := by
    have := congrArg List.length ((Did.parse_iff s url).1 h).1
    show (Did.display url).length ≤ _
    omega
  selectMessage s url d msg _ h := by
    have h : Document.select rules d url = .error msg := h
    unfold Document.select at h
    split at h
    · cases h
    · cases h
      simp only [List.length_cons, List.length_nil]
      omega
  methodMessage := h1
  method := h2
  jwkMessage := h3
  jwk := h4

namespace Ex

/-- Keys are all for EdDSA. -/
def keyed : Ext := { ext with getJwk := fun k => .ok { k with algorithm := some .edDSA } }

/-- The libraries as they are modelled. -/
def library : Ext := withJson (withBase64 (withDocuments ⟨true, true⟩ (withChrono keyed))) shortTexts

theorem restrained : Restrained library 4100 :=
  C148_library keyed ⟨true, true⟩ (T := texts) (by decide) (fun c => c.toNat < 127) (Nat.le_refl _) (fun _ _ h => by cases h)
    (fun _ _ _ h ha => by cases h; cases ha; simp [SsiAlg.edDSA]) (fun _ _ h => by cases h; simp)
    (fun _ _ _ h => by cases h)

/-- A proof for another issuer. -/
def strangerProof : Str := compact library header { body with issuedAt := 0, notBefore := none, expiresAt := none } none

/-- A request with it. -/
def strangerRequest : CredentialRequest := ⟨mdoc, some ⟨str! "jwt", strangerProof⟩⟩

/-- The nonce of that proof is expected. -/
def strangerOptions : EvaluateCredentialRequestOptions := ⟨some ⟨10, str! "nonce", 900⟩, some (str! "client")⟩

/-- The error. -/
def strangerError : CredentialIssuerError :=
  .jwtError (.audienceMismatch (str! "https://issuer") (str! "https://issuer.example.com"))

theorem stranger_rejected : evaluateCredentialRequest library 1000 metadata strangerRequest
    (some pinOffer) none none (some strangerOptions) = .err strangerError := by decide +kernel

/-- Such a request is rejected, and the reply bounded. -/
example : (strangerError.information library).display.length ≤ 330 * sentLength strangerRequest +
    6 * ownLength library 1000 metadata (some strangerOptions) + 108 * 4100 + 3500 :=
  C148_evaluate restrained _ _ _ _ _ _ _ stranger_rejected

/-- A key that is no DID URL, before the evaluation. -/
def strayProof : Str :=
  compact library { header with additionalHeader := some (.keyId (str! "key")) }
    { body with issuedAt := 0, notBefore := none, expiresAt := none } none

/-- A request with it. -/
def strayRequest : CredentialRequest := ⟨mdoc, some ⟨str! "jwt", strayProof⟩⟩

theorem stray_rejected : preEvaluateCredentialRequest library strayRequest =
    .err (.jwtError (.unableToTransformIntoDid (str! "key") (str! "Invalid DID URL"))) := by decide +kernel

/-- The reply to it. -/
example : ((CredentialIssuerError.jwtError (.unableToTransformIntoDid (str! "key") (str! "Invalid DID URL"))).information
    library).display.length ≤ 72 * sentLength strayRequest + 6 * 4100 + 1500 :=
  C148_pre restrained _ stray_rejected

end Ex

end Oid4vci
