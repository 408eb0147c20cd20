import Verif.Lemmas.Serde
import Verif.Lemmas.Json
import Verif.Model.AccessToken

/-! Deserialising a serialised value gives the value back, type by type. -/

namespace Oid4vci

open Serde Spec

theorem CredentialSubjectDisplay.de_ser (d : CredentialSubjectDisplay) : de d.ser = some d := by
  obtain ⟨n, l⟩ := d
  cases n <;> cases l <;> rfl

theorem CredentialSubject.de_ser (c : CredentialSubject) : de c.ser = some c := by
  obtain ⟨m, v, d⟩ := c
  have hs : struct [str! "mandatory", str! "valueType", str! "display"]
      (CredentialSubject.ser ⟨m, v, d⟩)
      = some [m.map .bool, v.map .str, d.map (serVec CredentialSubjectDisplay.ser)] := by
    cases m <;> cases v <;> cases d <;> rfl
  unfold de
  rw [hs]
  simp only [opt_map m (by simp) (fun _ _ => rfl : ∀ a ∈ m, Serde.bool (.bool a) = some a),
    opt_map v (by simp) (fun _ _ => rfl : ∀ a ∈ v, Serde.string (.str a) = some a),
    opt_map d (by simp [serVec]) (fun a _ => vec_serVec a fun b _ =>
      CredentialSubjectDisplay.de_ser b)]
  rfl

theorem hmap_subject (o : Option (HMap CredentialSubject)) (h : ∀ m ∈ o, UniqueKeys m) :
    opt (hmap CredentialSubject.de) (o.map (serMap CredentialSubject.ser)) = some o :=
  opt_map o (by simp [serMap]) fun m hm => hmap_serMap m (h m hm) fun _ _ =>
    CredentialSubject.de_ser _

theorem opt_map_strs (o : Option (List Str)) :
    opt (vec Serde.string) (o.map (serVec .str)) = some o :=
  opt_map o (by simp [serVec]) fun _ _ => vec_str _

theorem GoodValue.rust {n : Nat} {j : Json} (h : GoodValue n j) : RustValue j :=
  ⟨h.1, Json.rust_of_plain j h.2.1⟩

theorem GoodContext.rust {n : Nat} {c : LinkedDataContext} (h : GoodContext n c) : RustContext c := by
  cases c with
  | string s => trivial
  | map m => exact ⟨h.1, fun p hp => GoodValue.rust (h.2 p hp)⟩

theorem GoodCredential.rust {n : Nat} {c : CredentialFormatProfile} (h : GoodCredential n c) : RustCredential c := by
  cases c with
  | ldpVc ctx types cs order => exact ⟨fun c hc => GoodContext.rust (h.1 c hc), h.2⟩
  | _ => exact h

theorem GoodEntry.rust {n : Nat} {c : CredentialOrId} (h : GoodEntry n c) : RustEntry c := by
  cases c with
  | credentialId s => trivial
  | credential c => exact GoodCredential.rust h

theorem LinkedDataContext.de_ser (c : LinkedDataContext) (h : RustContext c) :
    de c.ser = some c := by
  cases c with
  | string s => rfl
  | map m =>
    have := hmap_serMap (d := fun j => some (value j)) (f := id) m h.1 fun p hp => by
      simp [value_normal _ (h.2 p hp).1]
    have hs : Serde.string (serMap id m) = none := rfl
    simp [de, ser, hs, this]

namespace CredentialFormatProfile

theorem deJwt_content (types : List Str) (cs : Option (HMap CredentialSubject))
    (order : Option (List Str)) (h : ∀ m ∈ cs, UniqueKeys m) :
    deJwt (.obj ((str! "types", serVec .str types)
      :: (skipNone (str! "credentialSubject") (serMap CredentialSubject.ser) cs
        ++ skipNone (str! "order") (serVec .str) order))) = some (types, cs, order) := by
  have hs : struct [str! "types", str! "credentialSubject", str! "order"]
      (.obj ((str! "types", serVec .str types)
        :: (skipNone (str! "credentialSubject") (serMap CredentialSubject.ser) cs
        ++ skipNone (str! "order") (serVec .str) order)))
      = some [some (serVec .str types), cs.map (serMap CredentialSubject.ser),
          order.map (serVec .str)] := by
    cases cs <;> cases order <;> rfl
  unfold deJwt
  rw [hs]
  simp only [req, vec_str, hmap_subject cs h, opt_map_strs]
  rfl

theorem deLdp_content (ctx : List LinkedDataContext) (types : List Str)
    (cs : Option (HMap CredentialSubject)) (order : Option (List Str))
    (hc : ∀ c ∈ ctx, RustContext c) (h : ∀ m ∈ cs, UniqueKeys m) :
    deLdp (.obj ((str! "@context", serVec LinkedDataContext.ser ctx)
      :: (str! "types", serVec .str types)
      :: (skipNone (str! "credentialSubject") (serMap CredentialSubject.ser) cs
        ++ skipNone (str! "order") (serVec .str) order))) = some (ldpVc ctx types cs order) := by
  have hs : struct [str! "@context", str! "types", str! "credentialSubject", str! "order"]
      (.obj ((str! "@context", serVec LinkedDataContext.ser ctx)
        :: (str! "types", serVec .str types)
        :: (skipNone (str! "credentialSubject") (serMap CredentialSubject.ser) cs
        ++ skipNone (str! "order") (serVec .str) order)))
      = some [some (serVec LinkedDataContext.ser ctx), some (serVec .str types),
          cs.map (serMap CredentialSubject.ser), order.map (serVec .str)] := by
    cases cs <;> cases order <;> rfl
  have hv : vec LinkedDataContext.de (serVec LinkedDataContext.ser ctx) = some ctx :=
    vec_serVec ctx fun c hm => LinkedDataContext.de_ser c (hc c hm)
  unfold deLdp
  rw [hs]
  simp only [req, vec_str, hv, hmap_subject cs h, opt_map_strs]
  rfl

theorem deMdoc_content (doctype : Str) (cs : Option (HMap CredentialSubject))
    (order : Option (List Str)) (h : ∀ m ∈ cs, UniqueKeys m) :
    deMdoc (.obj ((str! "doctype", .str doctype)
      :: (skipNone (str! "claims") (serMap CredentialSubject.ser) cs
        ++ skipNone (str! "order") (serVec .str) order))) = some (msoMdoc doctype cs order) := by
  have hs : struct [str! "doctype", str! "claims", str! "order"]
      (.obj ((str! "doctype", .str doctype)
        :: (skipNone (str! "claims") (serMap CredentialSubject.ser) cs
        ++ skipNone (str! "order") (serVec .str) order)))
      = some [some (.str doctype), cs.map (serMap CredentialSubject.ser),
          order.map (serVec .str)] := by
    cases cs <;> cases order <;> rfl
  unfold deMdoc
  rw [hs]
  simp only [req, Serde.string, hmap_subject cs h, opt_map_strs]
  rfl

theorem de_ser (b : Bool) (c : CredentialFormatProfile) (h : RustCredential c) :
    de b c.ser = some c := by
  cases c with
  | jwtVcJson types cs order =>
    have ht : tagged (str! "format") (ser (jwtVcJson types cs order))
        = some (.str (str! "jwt_vc_json"), .obj ((str! "types", serVec .str types)
      :: (skipNone (str! "credentialSubject") (serMap CredentialSubject.ser) cs
        ++ skipNone (str! "order") (serVec .str) order))) := by
      cases cs <;> cases order <;> rfl
    have hv : variant variantNames b (.str (str! "jwt_vc_json")) = some 0 := rfl
    unfold de
    rw [ht]
    simp only [hv, deJwt_content types cs order h]
    rfl
  | jwtVcJsonLd types cs order =>
    have ht : tagged (str! "format") (ser (jwtVcJsonLd types cs order))
        = some (.str (str! "jwt_vc_json-ld"), .obj ((str! "types", serVec .str types)
      :: (skipNone (str! "credentialSubject") (serMap CredentialSubject.ser) cs
        ++ skipNone (str! "order") (serVec .str) order))) := by
      cases cs <;> cases order <;> rfl
    have hv : variant variantNames b (.str (str! "jwt_vc_json-ld")) = some 1 := rfl
    unfold de
    rw [ht]
    simp only [hv, deJwt_content types cs order h]
    rfl
  | ldpVc ctx types cs order =>
    have ht : tagged (str! "format") (ser (ldpVc ctx types cs order))
        = some (.str (str! "ldp_vc"), .obj ((str! "@context", serVec LinkedDataContext.ser ctx)
      :: (str! "types", serVec .str types)
      :: (skipNone (str! "credentialSubject") (serMap CredentialSubject.ser) cs
        ++ skipNone (str! "order") (serVec .str) order))) := by
      cases cs <;> cases order <;> rfl
    have hv : variant variantNames b (.str (str! "ldp_vc")) = some 2 := rfl
    unfold de
    rw [ht]
    simp only [hv, deLdp_content ctx types cs order h.1 h.2]
  | msoMdoc doctype cs order =>
    have ht : tagged (str! "format") (ser (msoMdoc doctype cs order))
        = some (.str (str! "mso_mdoc"), .obj ((str! "doctype", .str doctype)
      :: (skipNone (str! "claims") (serMap CredentialSubject.ser) cs
        ++ skipNone (str! "order") (serVec .str) order))) := by
      cases cs <;> cases order <;> rfl
    have hv : variant variantNames b (.str (str! "mso_mdoc")) = some 3 := rfl
    unfold de
    rw [ht]
    simp only [hv, deMdoc_content doctype cs order h]

theorem ser_obj (c : CredentialFormatProfile) : ∃ kvs, c.ser = .obj kvs := by
  cases c <;> exact ⟨_, rfl⟩

end CredentialFormatProfile


/-! ### Offers -/

theorem CredentialOrId.de_ser (c : CredentialOrId) (h : RustEntry c) :
    de c.ser = some c := by
  cases c with
  | credentialId s => rfl
  | credential c =>
    obtain ⟨kvs, hk⟩ := CredentialFormatProfile.ser_obj c
    have hs : Serde.string c.ser = none := by rw [hk]; rfl
    simp [de, ser, hs, CredentialFormatProfile.de_ser true c h]

theorem AuthorizedCodeFlow.de_ser (a : AuthorizedCodeFlow) : de a.ser = some a := by
  obtain ⟨s⟩ := a
  cases s <;> rfl

theorem PreAuthorizedCodeFlow.de_ser (p : PreAuthorizedCodeFlow) : de p.ser = some p := by
  obtain ⟨c, r⟩ := p
  cases r <;> rfl

theorem CredentialOfferGrants.de_ser (g : CredentialOfferGrants) : de g.ser = some g := by
  obtain ⟨a, p⟩ := g
  have hs : struct [str! "authorization_code",
      str! "urn:ietf:params:oauth:grant-type:pre-authorized_code"] (CredentialOfferGrants.ser ⟨a, p⟩)
      = some [a.map AuthorizedCodeFlow.ser, p.map PreAuthorizedCodeFlow.ser] := by
    cases a <;> cases p <;> rfl
  unfold de
  rw [hs]
  simp only [opt_map a (by simp [AuthorizedCodeFlow.ser]) fun a _ => AuthorizedCodeFlow.de_ser a,
    opt_map p (by simp [PreAuthorizedCodeFlow.ser]) fun p _ => PreAuthorizedCodeFlow.de_ser p]
  rfl

theorem CredentialOffer.de_ser (o : CredentialOffer)
    (h : ∀ c ∈ o.credentials, RustEntry c) : de o.ser = some o := by
  obtain ⟨i, cs, g⟩ := o
  have hs : struct [str! "credential_issuer", str! "credentials", str! "grants"]
      (CredentialOffer.ser ⟨i, cs, g⟩)
      = some [some (.str i), some (serVec CredentialOrId.ser cs), some g.ser] := rfl
  have hv : vec CredentialOrId.de (serVec CredentialOrId.ser cs) = some cs :=
    vec_serVec cs fun c hc => CredentialOrId.de_ser c (h c hc)
  unfold de
  rw [hs]
  simp only [req, Serde.string, hv, CredentialOfferGrants.de_ser]
  rfl

/-! ### Credential requests -/

theorem CredentialRequestProof.de_ser (p : CredentialRequestProof) : de p.ser = some p := rfl

theorem CredentialRequest.de_ser (r : CredentialRequest) (h : RustCredential r.format) :
    de r.ser = some r := by
  obtain ⟨f, p⟩ := r
  have hs : structFlat [str! "proof"] (CredentialRequest.ser ⟨f, p⟩)
      = some ([some (serOpt CredentialRequestProof.ser p)], f.members) := by
    cases f with
    | jwtVcJson types cs order => cases cs <;> cases order <;> rfl
    | jwtVcJsonLd types cs order => cases cs <;> cases order <;> rfl
    | ldpVc ctx types cs order => cases cs <;> cases order <;> rfl
    | msoMdoc d cs order => cases cs <;> cases order <;> rfl
  have hm : Json.obj f.members = f.ser := by cases f <;> rfl
  unfold de
  rw [hs]
  simp only [opt_serOpt p (by simp [CredentialRequestProof.ser]) fun p _ =>
    CredentialRequestProof.de_ser p, hm, CredentialFormatProfile.de_ser true f h]
  rfl

/-! ### Proof JWTs -/

theorem ProofJwtAlgorithm.de_ser (a : ProofJwtAlgorithm) : de a.ser = some a := by
  cases a <;> rfl

theorem ProofJwtHeader.de_ser (h : ProofJwtHeader) : de h.ser = some h := by
  obtain ⟨typ, alg, add⟩ := h
  have hs : structFlat [str! "typ", str! "alg"] (ProofJwtHeader.ser ⟨typ, alg, add⟩)
      = some ([some (.str typ), some alg.ser],
        (add.map ProofJwtAdditionalHeader.member).toList) := by
    cases add with
    | none => rfl
    | some a => cases a <;> rfl
  have ha : ProofJwtAdditionalHeader.deFlat (add.map ProofJwtAdditionalHeader.member).toList = add := by
    cases add with
    | none => rfl
    | some a => cases a <;> rfl
  unfold de
  rw [hs]
  simp only [req, Serde.string, ProofJwtAlgorithm.de_ser, ha]
  rfl

theorem ProofJwtBody.de_ser (x : Ext) (b : ProofJwtBody) (h : TimesOk x b) :
    de x (b.ser x) = some b := by
  obtain ⟨iss, aud, sub, iat, nonce, nbf, exp⟩ := b
  have hs : struct [str! "iss", str! "aud", str! "sub", str! "iat", str! "nonce", str! "nbf",
      str! "exp"] (ProofJwtBody.ser x ⟨iss, aud, sub, iat, nonce, nbf, exp⟩)
      = some [iss.map .str, some (.str aud), some (serOpt .str sub), some (serTime x iat),
          some (.str nonce), nbf.map (serTime x), exp.map (serTime x)] := by
    cases iss <;> cases nbf <;> cases exp <;> rfl
  have h1 : deTime x (serTime x iat) = some iat := h.1
  have h2 : opt (deTime x) (nbf.map (serTime x)) = some nbf :=
    opt_map nbf (by simp [serTime]) h.2.1
  have h3 : opt (deTime x) (exp.map (serTime x)) = some exp :=
    opt_map exp (by simp [serTime]) h.2.2
  unfold de
  rw [hs]
  simp only [req, Serde.string, opt_str, h1,
    opt_map iss (by simp) (fun _ _ => rfl : ∀ a ∈ iss, Serde.string (.str a) = some a),
    h2, h3]
  rfl

/-! ### Token requests and responses -/

theorem GrantType.de_ser (g : GrantType) : de g.ser = some g := by
  cases g with
  | authorizedCodeFlow => rfl
  | preAuthorizedCodeFlow code pin =>
    have ht : tagged (str! "grant_type") (ser (preAuthorizedCodeFlow code pin))
        = some (.str (str! "urn:ietf:params:oauth:grant-type:pre-authorized_code"),
          .obj [(str! "pre_authorized_code", .str code), (str! "user_pin", serOpt serU64 pin)]) := rfl
    have hs : struct [str! "pre_authorized_code", str! "user_pin"]
        (.obj [(str! "pre_authorized_code", .str code), (str! "user_pin", serOpt serU64 pin)])
        = some [some (.str code), some (serOpt serU64 pin)] := rfl
    have hv : variant variantNames false
        (.str (str! "urn:ietf:params:oauth:grant-type:pre-authorized_code")) = some 1 := rfl
    have hp : opt Serde.u64 (some (serOpt serU64 pin)) = some pin :=
      opt_serOpt pin (by simp [serU64]) fun n _ => u64_ser n
    unfold de
    rw [ht]
    simp only [hv]
    unfold dePre
    rw [hs]
    simp only [req, Serde.string, hp]
    rfl

theorem AccessTokenRequest.de_ser (r : AccessTokenRequest) : de r.ser = some r := by
  obtain ⟨g⟩ := r
  have hs : struct [str! "grant_type"] (AccessTokenRequest.ser ⟨g⟩) = some [some g.ser] := rfl
  unfold de
  rw [hs]
  simp only [req, GrantType.de_ser]
  rfl

theorem AccessTokenSuccessResponse.de_ser (r : AccessTokenSuccessResponse) : de r.ser = some r := by
  obtain ⟨token, type, expires, scope, nonce, nonceExpires, pending, interval⟩ := r
  have hs : struct [str! "access_token", str! "token_type", str! "expires_in", str! "scope",
      str! "c_nonce", str! "c_nonce_expires_in", str! "authorization_pending", str! "interval"]
      (AccessTokenSuccessResponse.ser
        ⟨token, type, expires, scope, nonce, nonceExpires, pending, interval⟩)
      = some [some (.str token), some type.ser, some (serOpt serU32 expires),
          some (serOpt .str scope), some (serOpt .str nonce), some (serOpt serU32 nonceExpires),
          some (serOpt .bool pending), some (serOpt serU32 interval)] := rfl
  have hu : ∀ o : Option UInt32, opt Serde.u32 (some (serOpt serU32 o)) = some o := fun o =>
    opt_serOpt o (by simp [serU32]) fun n _ => u32_ser n
  have ht : AccessTokenType.de type.ser = some type := by cases type; rfl
  unfold de
  rw [hs]
  simp only [req, Serde.string, opt_str, opt_bool, hu, ht]
  rfl

theorem CredentialFormatProfileOrEncoded.de_ser (c : CredentialFormatProfileOrEncoded)
    (h : ∀ f, c = .credentialFormatProfile f → RustCredential f) : de c.ser = some c := by
  cases c with
  | credentialFormatProfile f =>
    simp [de, ser, CredentialFormatProfile.de_ser false f (h f rfl)]
  | encoded s => rfl

theorem CredentialSuccessResponse.de_ser (r : CredentialSuccessResponse)
    (h : ∀ f, r.credential = some (.credentialFormatProfile f) → RustCredential f) :
    de r.ser = some r := by
  obtain ⟨format, credential, token, nonce, expires⟩ := r
  have hs : struct [str! "format", str! "credential", str! "acceptance_token", str! "c_nonce",
      str! "c_nonce_expires_in"]
      (CredentialSuccessResponse.ser ⟨format, credential, token, nonce, expires⟩)
      = some [some (.str format),
          some (serOpt CredentialFormatProfileOrEncoded.ser credential),
          some (serOpt .str token), some (serOpt .str nonce),
          some (serOpt (fun n : UInt32 => .num n.toNat) expires)] := rfl
  have hc : opt CredentialFormatProfileOrEncoded.de
      (some (serOpt CredentialFormatProfileOrEncoded.ser credential)) = some credential :=
    opt_serOpt credential
      (by intro a _; cases a <;> simp [CredentialFormatProfileOrEncoded.ser]) fun c hc =>
      CredentialFormatProfileOrEncoded.de_ser c fun f hf => h f (by
        simp only at hc ⊢; rw [Option.mem_def.1 hc, hf])
  unfold de
  rw [hs]
  simp only [req, Serde.string, opt_str, hc,
    opt_serOpt expires (by simp) fun n _ => u32_ser n]
  rfl

/-! ### Issuer metadata -/

theorem DisplayLogo.de_ser (l : DisplayLogo) : de l.ser = some l := by
  obtain ⟨u, a⟩ := l
  cases u <;> cases a <;> rfl

theorem DisplayProperties.de_ser (d : DisplayProperties) : de d.ser = some d := by
  obtain ⟨name, locale, logo, description, background, text⟩ := d
  have hs : struct [str! "name", str! "locale", str! "logo", str! "description",
      str! "background_color", str! "text_color"]
      (DisplayProperties.ser ⟨name, locale, logo, description, background, text⟩)
      = some [some (.str name), some (serOpt .str locale), some (serOpt DisplayLogo.ser logo),
          some (serOpt .str description), some (serOpt .str background), some (serOpt .str text)] :=
    rfl
  unfold de
  rw [hs]
  simp only [req, Serde.string, opt_str,
    opt_serOpt logo (by simp [DisplayLogo.ser]) fun l _ => DisplayLogo.de_ser l]
  rfl

theorem CredentialSupported.de_ser (c : CredentialSupported)
    (h : RustCredential c.format) : de c.ser = some c := by
  obtain ⟨f, id, binding, suites, display⟩ := c
  have hs : structFlat [str! "id", str! "cryptographic_binding_mehtods_supported",
      str! "cryptographic_suites_supported", str! "display"]
      (CredentialSupported.ser ⟨f, id, binding, suites, display⟩)
      = some ([some (serOpt .str id), some (serOpt (serVec .str) binding),
          some (serOpt (serVec .str) suites),
          some (serOpt (serVec DisplayProperties.ser) display)], f.members) := by
    cases f with
    | jwtVcJson types cs order => cases cs <;> cases order <;> rfl
    | jwtVcJsonLd types cs order => cases cs <;> cases order <;> rfl
    | ldpVc ctx types cs order => cases cs <;> cases order <;> rfl
    | msoMdoc d cs order => cases cs <;> cases order <;> rfl
  have hm : Json.obj f.members = f.ser := by cases f <;> rfl
  unfold de
  rw [hs]
  simp only [opt_str, opt_strs,
    opt_serOpt display (by simp [serVec]) fun ds _ => vec_serVec ds fun d _ =>
      DisplayProperties.de_ser d, hm, CredentialFormatProfile.de_ser true f h]
  rfl

theorem field_append (k : Str) (kvs as : List (Str × Json)) (h : ∀ p ∈ as, p.1 ≠ k) :
    field k (kvs ++ as) = field k kvs := by
  have : occurrences k (kvs ++ as) = occurrences k kvs := by
    simp only [occurrences, List.filter_append]
    rw [List.filter_eq_nil_iff (l := as) |>.2 (by simpa using h), List.append_nil]
  simp only [field, this]

theorem fields_append (ks : List Str) (kvs as : List (Str × Json)) (h : ∀ p ∈ as, p.1 ∉ ks) :
    fields ks (kvs ++ as) = fields ks kvs := by
  induction ks with
  | nil => rfl
  | cons k ks ih =>
    simp only [fields]
    rw [field_append k kvs as fun p hp hk => h p hp (by simp [hk]),
      ih fun p hp hk => h p hp (by simp [hk])]

theorem CredentialIssuerMetadata.de_ser (m : CredentialIssuerMetadata)
    (h : ∀ c ∈ m.credentialsSupported, RustCredential c.format)
    (ha : ∀ a ∈ m.additionalFields, UniqueKeys a ∧ ∀ p ∈ a, Normal p.2 ∧ p.1 ∉ metadataFields) :
    de m.ser = some { m with additionalFields := some (m.additionalFields.getD []) } := by
  obtain ⟨issuer, server, endpoint, batch, supported, additional⟩ := m
  simp only at h ha
  have ha' : UniqueKeys (additional.getD []) ∧
      ∀ p ∈ additional.getD [], Normal p.2 ∧ p.1 ∉ metadataFields := by
    cases additional with
    | none => simp [UniqueKeys]
    | some a => exact ha a rfl
  have hs : structFlat [str! "credential_issuer", str! "authorization_server",
      str! "credential_endpoint", str! "batch_credential_endpoint", str! "credentials_supported"]
      (CredentialIssuerMetadata.ser ⟨issuer, server, endpoint, batch, supported, additional⟩)
      = some ([some (.str issuer), some (serOpt .str server), some (.str endpoint),
          some (serOpt .str batch), some (serVec CredentialSupported.ser supported)],
          additional.getD []) := by
    simp only [structFlat, CredentialIssuerMetadata.ser]
    have hnot : ∀ p ∈ additional.getD [], p.1 ∉ [str! "credential_issuer",
        str! "authorization_server", str! "credential_endpoint", str! "batch_credential_endpoint",
        str! "credentials_supported"] := fun p hp => (ha'.2 p hp).2
    rw [fields_append _ _ _ hnot, List.filter_append,
      List.filter_eq_self (l := additional.getD []) |>.2 fun p hp => decide_eq_true (hnot p hp)]
    rfl
  have he : entries (fun j => some (value j)) [] (additional.getD []) = some (additional.getD []) := by
    have := entries_map (d := fun j => some (value j)) (f := id) (additional.getD []) []
      (by simpa using ha'.1) fun p hp => by simp [value_normal _ (ha'.2 p hp).1]
    simpa using this
  have hv : vec CredentialSupported.de (serVec CredentialSupported.ser supported) = some supported :=
    vec_serVec supported fun c hc => CredentialSupported.de_ser c (h c hc)
  unfold de
  rw [hs]
  simp only [req, Serde.string, opt_str, hv, he]
  rfl

end Oid4vci
