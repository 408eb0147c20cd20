import Verif.Spec.Options
import Verif.Props.JwtText
import Verif.Props.Report
import Verif.Props.Evaluate

/-!
C69: the application's settings are read exactly. C70: missing settings never widen what is accepted.
-/

namespace Oid4vci

open Spec Serde

theorem instant_iff (x : Ext) (v : Json) (t : Time) : deTime x v = some t ↔ IsInstant x v t := deTime_eq

/-- C69. The expected nonce. -/
theorem C69_nonceSettings (x : Ext) (v : Json) (t : CNonceOptions) :
    CNonceOptions.de x v = some t ↔ NonceSettingsDoc x v t := by
  unfold CNonceOptions.de
  constructor
  · intro h
    split at h
    · rename_i hs
      simp only [Option.bind_eq_bind, Option.bind_eq_some_iff] at h
      obtain ⟨a0, e0, a1, e1, a2, e2, h⟩ := h
      cases h
      exact ⟨_, _, _, struct_iff.1 hs, (req_iff u32_iff).1 e0, (req_iff text_iff).1 e1,
        (req_iff (instant_iff x)).1 e2⟩
    · cases h
  · rintro ⟨_, _, _, hs, h0, h1, h2⟩
    rw [struct_iff.2 hs]
    simp only [(req_iff u32_iff).2 h0, (req_iff text_iff).2 h1, (req_iff (instant_iff x)).2 h2,
      Option.bind_eq_bind, Option.bind_some]

/-- C69. The settings for credential requests. -/
theorem C69_requestSettings (x : Ext) (v : Json) (t : EvaluateCredentialRequestOptions) :
    EvaluateCredentialRequestOptions.de x v = some t ↔ RequestSettingsDoc x v t := by
  unfold EvaluateCredentialRequestOptions.de
  constructor
  · intro h
    split at h
    · rename_i hs
      simp only [Option.bind_eq_bind, Option.bind_eq_some_iff] at h
      obtain ⟨a0, e0, a1, e1, h⟩ := h
      cases h
      exact ⟨_, _, struct_iff.1 hs, (opt_iff (C69_nonceSettings x) rfl).1 e0,
        (opt_iff text_iff rfl).1 e1⟩
    · cases h
  · rintro ⟨_, _, hs, h0, h1⟩
    rw [struct_iff.2 hs]
    simp only [(opt_iff (C69_nonceSettings x) rfl).2 h0, (opt_iff text_iff rfl).2 h1,
      Option.bind_eq_bind, Option.bind_some]

/-- C69. The settings for token requests. -/
theorem C69_tokenSettings (v : Json) (t : EvaluateAccessTokenRequestOptions) :
    EvaluateAccessTokenRequestOptions.de v = some t ↔ TokenSettingsDoc v t := by
  unfold EvaluateAccessTokenRequestOptions.de
  constructor
  · intro h
    split at h
    · rename_i hs
      obtain ⟨a, e, rfl⟩ := Option.map_eq_some_iff.1 h
      exact ⟨_, struct_iff.1 hs, (opt_iff u64_iff rfl).1 e⟩
    · cases h
  · rintro ⟨_, hs, h⟩
    rw [struct_iff.2 hs]
    simp only [(opt_iff u64_iff rfl).2 h, Option.map_some]

/-- C69. A fresh nonce. -/
theorem C69_nonce (v : Json) (t : CNonce) : CNonce.de v = some t ↔ NonceDoc v t := by
  unfold CNonce.de
  constructor
  · intro h
    split at h
    · rename_i hs
      simp only [Option.bind_eq_bind, Option.bind_eq_some_iff] at h
      obtain ⟨a0, e0, a1, e1, h⟩ := h
      cases h
      exact ⟨_, _, struct_iff.1 hs, (req_iff text_iff).1 e0, (opt_iff u32_iff rfl).1 e1⟩
    · cases h
  · rintro ⟨_, _, hs, h0, h1⟩
    rw [struct_iff.2 hs]
    simp only [(req_iff text_iff).2 h0, (opt_iff u32_iff rfl).2 h1, Option.bind_eq_bind,
      Option.bind_some]

/-- C69. Authorization server metadata. -/
theorem C69_server (v : Json) (t : AuthorizationServerMetadata) :
    AuthorizationServerMetadata.de v = some t ↔ ServerDoc v t := by
  cases t
  cases v with
  | obj kvs => simp [AuthorizationServerMetadata.de, struct, fields, ServerDoc]
  | arr vs => cases vs <;> simp [AuthorizationServerMetadata.de, struct, ServerDoc]
  | _ => simp [AuthorizationServerMetadata.de, struct, ServerDoc]

/-- C69. A proof JWT as a plain JSON document. -/
theorem C69_jwt (x : Ext) (v : Json) (t : ProofJwt) : ProofJwt.de x v = some t ↔ JwtDoc x v t := by
  unfold ProofJwt.de
  constructor
  · intro h
    split at h
    · rename_i hs
      simp only [Option.bind_eq_bind, Option.bind_eq_some_iff] at h
      obtain ⟨a0, e0, a1, e1, a2, e2, h⟩ := h
      cases h
      exact ⟨_, _, _, struct_iff.1 hs, (req_iff C63_header).1 e0, (req_iff (C67_body x)).1 e1,
        (opt_iff text_iff rfl).1 e2⟩
    · cases h
  · rintro ⟨_, _, _, hs, h0, h1, h2⟩
    rw [struct_iff.2 hs]
    simp only [(req_iff C63_header).2 h0, (req_iff (C67_body x)).2 h1, (opt_iff text_iff rfl).2 h2,
      Option.bind_eq_bind, Option.bind_some]

/-! ### What is written -/

theorem CNonceOptions.de_ser (x : Ext) (o : CNonceOptions)
    (h : x.parseTime (x.showTime o.cNonceCreatedAt) = some o.cNonceCreatedAt) :
    CNonceOptions.de x (o.ser x) = some o := by
  obtain ⟨expires, nonce, created⟩ := o
  have hs : struct [str! "c_nonce_expires_in", str! "expected_c_nonce", str! "c_nonce_created_at"]
      (CNonceOptions.ser x ⟨expires, nonce, created⟩)
      = some [some (serU32 expires), some (.str nonce), some (serTime x created)] := rfl
  exact (C69_nonceSettings x _ _).2 ⟨_, _, _, struct_iff.1 hs, ⟨_, rfl, rfl⟩, ⟨_, rfl, rfl⟩,
    ⟨_, rfl, (instant_iff x _ _).1 h⟩⟩

theorem EvaluateCredentialRequestOptions.de_ser (x : Ext) (o : EvaluateCredentialRequestOptions)
    (h : ∀ c ∈ o.cNonce, x.parseTime (x.showTime c.cNonceCreatedAt) = some c.cNonceCreatedAt) :
    EvaluateCredentialRequestOptions.de x (o.ser x) = some o := by
  have hs : struct [str! "c_nonce", str! "client_id"] (o.ser x)
      = some [some (serOpt (CNonceOptions.ser x) o.cNonce), some (serOpt .str o.clientId)] := rfl
  have hc : opt (CNonceOptions.de x) (some (serOpt (CNonceOptions.ser x) o.cNonce)) = some o.cNonce :=
    opt_serOpt o.cNonce (by simp [CNonceOptions.ser]) fun c hc => CNonceOptions.de_ser x c (h c hc)
  unfold EvaluateCredentialRequestOptions.de
  rw [hs]
  simp only [hc, opt_str]
  rfl

theorem CNonce.de_ser (c : CNonce) : CNonce.de c.ser = some c := by
  have hs : struct [str! "c_nonce", str! "c_nonce_expires_in"] c.ser
      = some [some (.str c.cNonce), some (serOpt serU32 c.cNonceExpiresIn)] := rfl
  have hc : opt Serde.u32 (some (serOpt serU32 c.cNonceExpiresIn)) = some c.cNonceExpiresIn :=
    opt_serOpt c.cNonceExpiresIn (by simp [serU32]) fun n _ => u32_ser n
  unfold CNonce.de
  rw [hs]
  simp only [req, Serde.string, hc]
  rfl

theorem EvaluateAccessTokenRequestOptions.de_ser (o : EvaluateAccessTokenRequestOptions) :
    EvaluateAccessTokenRequestOptions.de o.ser = some o := by
  have hs : struct [str! "expected_user_pin"] o.ser
      = some [some (serOpt serU64 o.expectedUserPin)] := rfl
  have hc : opt Serde.u64 (some (serOpt serU64 o.expectedUserPin)) = some o.expectedUserPin :=
    opt_serOpt o.expectedUserPin (by simp [serU64]) fun n _ => u64_ser n
  unfold EvaluateAccessTokenRequestOptions.de
  rw [hs]
  simp only [hc, Option.map_some]

theorem ProofJwt.de_ser (x : Ext) (j : ProofJwt) (h : TimesOk x j.body) :
    ProofJwt.de x (j.ser x) = some j := by
  have hs : struct [str! "header", str! "body", str! "signature"] (j.ser x)
      = some [some j.header.ser, some (j.body.ser x), some (serOpt .str j.signature)] := rfl
  unfold ProofJwt.de
  rw [hs]
  simp only [req, ProofJwtHeader.de_ser, ProofJwtBody.de_ser x _ h, opt_str]
  rfl

theorem fits_nonceOptions (x : Ext) (n : Nat) (o : CNonceOptions) : Fits (n + 1) (o.ser x) :=
  fits_obj (forall_cons (fits_u32 ..) (forall_cons (fits_str ..) (forall_cons (fits_str ..) forall_nil)))

/-- C69. Settings and nonces survive their JSON text, for every representable instant. -/
theorem C69_text (x : Ext) (o : EvaluateCredentialRequestOptions) (t : EvaluateAccessTokenRequestOptions)
    (c : CNonce) (h : ∀ c ∈ o.cNonce, Time.Valid c.cNonceCreatedAt) :
    EvaluateCredentialRequestOptions.fromJson (withChrono x) (o.ser (withChrono x)).print
      = some o ∧
    EvaluateAccessTokenRequestOptions.fromJson t.ser.print = some t ∧
    CNonce.fromJson c.ser.print = some c := by
  have h1 : Fits 127 (o.ser (withChrono x)) :=
    fits_obj (forall_cons (fits_serOpt _ fun c _ => fits_nonceOptions _ 125 c)
      (forall_cons (fits_serOpt _ fun _ _ => fits_str ..) forall_nil))
  have h2 : Fits 127 t.ser := fits_obj (forall_cons (fits_serOpt _ fun _ _ => fits_u64 126 _) forall_nil)
  have h3 : Fits 127 c.ser := fits_obj (forall_cons (fits_str 126 _)
    (forall_cons (fits_serOpt _ fun _ _ => fits_u32 ..) forall_nil))
  rw [o.fromJson_ser _ (Json.rust_of_plain _ h1.1), t.fromJson_ser (Json.rust_of_plain _ h2.1),
    c.fromJson_ser (Json.rust_of_plain _ h3.1), Json.parse_print _ h1.1 h1.2, Json.parse_print _ h2.1 h2.2,
    Json.parse_print _ h3.1 h3.2]
  exact ⟨EvaluateCredentialRequestOptions.de_ser _ o fun c hc => C56_round_trip _ (h c hc),
    EvaluateAccessTokenRequestOptions.de_ser t, CNonce.de_ser c⟩

/-- C69. A proof JWT survives as a plain JSON document, too. -/
theorem C69_jwt_text (x : Ext) (j : ProofJwt) (h1 : Time.Valid j.body.issuedAt)
    (h2 : ∀ t ∈ j.body.notBefore, Time.Valid t) (h3 : ∀ t ∈ j.body.expiresAt, Time.Valid t) :
    ProofJwt.fromJson (withChrono x) (j.ser (withChrono x)).print = some j := by
  have h : Fits 127 (j.ser (withChrono x)) :=
    fits_obj (forall_cons (fits_header 125 _) (forall_cons (fits_body _ 125 _)
      (forall_cons (fits_serOpt _ fun _ _ => fits_str ..) forall_nil)))
  rw [j.fromJson_ser _ (Json.rust_of_plain _ h.1), Json.parse_print _ h.1 h.2]
  exact ProofJwt.de_ser _ j ⟨C56_round_trip _ h1, fun t ht => C56_round_trip t (h2 t ht),
    fun t ht => C56_round_trip t (h3 t ht)⟩

/-- A settings file with white space, an unknown member and an offset in the date. -/
example : EvaluateCredentialRequestOptions.fromJson (withChrono Ex.ext) (str! "{ \"c_nonce\": {\"c_nonce_expires_in\":86400,\"expected_c_nonce\":\"n\",\"c_nonce_created_at\":\"2018-09-14T23:19:10+02:00\"}, \"x\": 1 }")
    = some ⟨some ⟨86400, str! "n", 1536959950000000000⟩, none⟩ := by decide +kernel

/-- An incomplete nonce is not read as "no nonce". -/
example : EvaluateCredentialRequestOptions.de (withChrono Ex.ext)
    (.obj [(str! "c_nonce", .obj [(str! "expected_c_nonce", .str (str! "n"))])]) = none := by decide +kernel

/-! ### C70 -/

/-- C70. Settings without a PIN are no settings. -/
theorem C70_no_pin (r : AccessTokenRequest) (offer : Option CredentialOffer) :
    AccessToken.evaluateAccessTokenRequest r offer (some ⟨none⟩)
      = AccessToken.evaluateAccessTokenRequest r offer none := by
  obtain ⟨g⟩ := r
  rcases validate_cases g with hv | ⟨e, hv⟩
  · cases g with
    | authorizedCodeFlow => rfl
    | preAuthorizedCodeFlow code pin => rw [evaluate_pre_eq _ _ _ _ hv, evaluate_pre_eq _ _ _ _ hv]; rfl
  · rw [evaluate_invalid _ _ _ _ hv, evaluate_invalid _ _ _ _ hv]

/-- C70. What is accepted without settings is accepted with any, and carries no PIN. -/
theorem C70_token (r : AccessTokenRequest) (offer : Option CredentialOffer)
    (h : AccessToken.evaluateAccessTokenRequest r offer none = .ok ()) :
    (∀ options, AccessToken.evaluateAccessTokenRequest r offer options = .ok ()) ∧
    ∃ code, r.grantType = .preAuthorizedCodeFlow code none := by
  obtain ⟨code, pin, p, h1, h2, h3, h4, h5⟩ := (C01_accept_iff _ _ _).1 h
  cases pin with
  | some n => exact absurd (h5 n rfl).2 (by simp [expectedPin])
  | none =>
    exact ⟨fun options => (C01_accept_iff _ _ _).2 ⟨code, none, p, h1, h2, h3, h4, by simp⟩, code, h1⟩

/-- C70. A configured client id narrows acceptance to proofs naming it: for a purely pre-authorized offer
the requests accepted with it are those accepted without it whose `iss` is that client, with the same
result. -/
theorem C70_client (x : Ext) (now : Time) (m : CredentialIssuerMetadata) (r : CredentialRequest)
    (o : CredentialOffer) (asm : Option AuthorizationServerMetadata) (doc : Option x.Doc)
    (c : Option CNonceOptions) (client : Str) (resp : CredentialIssuerEvaluateRequestResponse)
    (ho : PurelyPreAuthorized o) :
    CredentialIssuer.evaluateCredentialRequest x now m r (some o) asm doc (some ⟨c, some client⟩) = .ok resp ↔
      CredentialIssuer.evaluateCredentialRequest x now m r (some o) asm doc (some ⟨c, none⟩) = .ok resp ∧
      ∃ p jwt, r.proof = some p ∧ ProofJwt.fromStr x p.jwt = .ok jwt ∧ jwt.body.issuer = some client := by
  rw [evaluate_ok_iff, evaluate_ok_iff]
  constructor
  · rintro ⟨hd, ha, o', jwt, did, key, sig, msg, h1, ⟨⟨p, hp, hj⟩, b2, b3, b4, b5⟩, h3⟩
    cases h1
    exact ⟨⟨hd, ha, o, jwt, did, key, sig, msg, rfl, ⟨⟨p, hp, hj⟩, b2, b3, b4,
      fun h => h.elim (fun h => absurd rfl h) (fun h => absurd ho h)⟩, h3⟩, p, jwt, hp, hj,
      b5 (.inl (by simp [clientId]))⟩
  · rintro ⟨⟨hd, ha, o', jwt, did, key, sig, msg, h1, ⟨⟨p, hp, hj⟩, b2, b3, b4, b5⟩, h3⟩, p', jwt', hp', hj', hi⟩
    cases h1
    rw [hp] at hp'; cases hp'
    rw [hj] at hj'; cases hj'
    exact ⟨hd, ha, o, jwt, did, key, sig, msg, rfl, ⟨⟨p, hp, hj⟩, b2, b3, b4, fun _ => hi⟩, h3⟩

/-- C70. For any other offer, settings without a client id accept only proofs without `iss`. -/
theorem C70_no_client (x : Ext) (now : Time) (m : CredentialIssuerMetadata) (r : CredentialRequest)
    (o : CredentialOffer) (asm : Option AuthorizationServerMetadata) (doc : Option x.Doc)
    (c : Option CNonceOptions) (resp : CredentialIssuerEvaluateRequestResponse)
    (ho : ¬ PurelyPreAuthorized o)
    (h : CredentialIssuer.evaluateCredentialRequest x now m r (some o) asm doc (some ⟨c, none⟩) = .ok resp) :
    ∃ p jwt, r.proof = some p ∧ ProofJwt.fromStr x p.jwt = .ok jwt ∧ jwt.body.issuer = none := by
  obtain ⟨hd, ha, o', jwt, did, key, sig, msg, h1, ⟨⟨p, hp, hj⟩, b2, b3, b4, b5⟩, h3⟩ :=
    (evaluate_ok_iff ..).1 h
  cases h1
  exact ⟨p, jwt, hp, hj, b5 (.inr ho)⟩

/-- Accepted without settings; not accepted without settings. -/
example : AccessToken.evaluateAccessTokenRequest (Ex.tokenRequest (str! "code") none)
    (some ⟨[], [], ⟨none, some ⟨str! "code", none⟩⟩⟩) none = .ok () := by decide +kernel
example : AccessToken.evaluateAccessTokenRequest (Ex.tokenRequest (str! "code") (some 1234))
    (some Ex.pinOffer) none ≠ .ok () := by decide +kernel
example : PurelyPreAuthorized Ex.pinOffer := ⟨by decide, rfl⟩
example : ¬ PurelyPreAuthorized Ex.bothOffer := fun h => absurd h.2 (by decide)

/-- The hypotheses of C69 and C70 at these settings. -/
example : EvaluateCredentialRequestOptions.fromJson (withChrono Ex.ext) ((⟨some ⟨86400, str! "n", 1536959950000000000⟩, none⟩ : EvaluateCredentialRequestOptions).ser
      (withChrono Ex.ext)).print
    = some ⟨some ⟨86400, str! "n", 1536959950000000000⟩, none⟩ :=
  (C69_text Ex.ext _ ⟨some 1234⟩ ⟨str! "n", none⟩ (by rintro c ⟨⟩; decide +kernel)).1
example : AccessToken.evaluateAccessTokenRequest (Ex.tokenRequest (str! "code") none)
    (some ⟨[], [], ⟨none, some ⟨str! "code", none⟩⟩⟩) (some ⟨some 1234⟩) = .ok () :=
  (C70_token _ _ (by decide +kernel)).1 _
/-- The example JWT names no client: with a client in the settings it is refused. -/
example (resp : CredentialIssuerEvaluateRequestResponse) : CredentialIssuer.evaluateCredentialRequest Ex.ext 1000
    Ex.metadata Ex.request (some Ex.pinOffer) none (some Ex.didDoc) (some ⟨none, some (str! "wallet")⟩) ≠ .ok resp := by
  intro h
  obtain ⟨-, p, jwt, hp, hj, hi⟩ := (C70_client _ _ _ _ _ _ _ _ _ _ ⟨by decide, rfl⟩).1 h
  cases hp
  cases Ex.fromStr_request.symm.trans hj
  exact absurd hi (by decide)

end Oid4vci
