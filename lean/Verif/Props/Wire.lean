import Verif.Lemmas.ShapeText
import Verif.Lemmas.Base64
import Verif.Lemmas.Utf8
import Verif.Props.Offer
import Verif.Props.Codec

/-! Texts on the wire: C14, C37, C45, C48, C49. -/

namespace Oid4vci

open Serde Spec CredentialIssuer

/-! ### C45 -/

/-- C45. Printed documents parse back, as `&str` and as bytes. -/
theorem C45_parse_print (v : Json) (hp : PlainNumbers v) (hd : depth v ≤ 127) :
    Json.parse v.print = some v ∧ Json.parseSlice (utf8Encode v.print) = some v := by
  have := Json.parse_print v hp hd
  exact ⟨this, by simp [Json.parseSlice, utf8Decode_encode, this]⟩

/-- C45. The nesting bound is exact: deeper documents never parse. -/
theorem C45_depth_limit (v : Json) (hp : RustNumbers v) (hd : 127 < depth v) :
    Json.parse v.print = none := Json.parse_deep v hp hd

/-- C45. Printed objects, arrays and strings are self-delimiting: whatever text follows, documents
and remainders are determined by the concatenation. -/
theorem C45_no_prefix_ambiguity (v w : Json) (r s : Str) (hv : RustNumbers v)
    (hw : RustNumbers w) (nv : ∀ n d, v ≠ .num n ∧ v ≠ .float d) (nw : ∀ n d, w ≠ .num n ∧ w ≠ .float d)
    (h : v.print ++ r = w.print ++ s) : v = w ∧ r = s :=
  Json.print_prefix v w r s hv hw
    (by rintro (⟨n, e⟩ | ⟨d, e⟩); exacts [absurd e (nv n ⟨false, 0, 0⟩).1, absurd e (nv 0 d).2])
    (by rintro (⟨n, e⟩ | ⟨d, e⟩); exacts [absurd e (nw n ⟨false, 0, 0⟩).1, absurd e (nw 0 d).2]) h

/-- C45. Distinct documents have distinct texts. -/
theorem C45_print_injective (v w : Json) (hv : RustNumbers v) (hw : RustNumbers w)
    (h : v.print = w.print) : v = w := Json.print_injective v w hv hw h

namespace Ex
/-- A document with escapes, an astral character, negative and large numbers. -/
def doc : Json := .obj [(str! "a\"\\", .arr [.num (-9223372036854775808), .num 18446744073709551615,
  .str (str! "\n\t\x01é😀"), .null, .bool true]), ([], .obj []), (str! "a\"\\", .arr [])]
end Ex

example : PlainNumbers Ex.doc ∧ depth Ex.doc = 2 := by
  refine ⟨?_, by decide +kernel⟩
  simp [Ex.doc, PlainNumbers, PlainNumbersMembers, PlainNumbersList]
example : Ex.doc.print = str! "{\"a\\\"\\\\\":[-9223372036854775808,18446744073709551615,\"\\n\\t\\u0001é😀\",null,true],\"\":{},\"a\\\"\\\\\":[]}" := by
  decide +kernel
example : Json.parse (str! " { \"k\" : [ 1 , -2 , \"\\ud83d\\ude00\\/\" ] } ")
    = some (.obj [(str! "k", .arr [.num 1, .num (-2), .str (str! "😀/")])]) := by decide +kernel

/-! ### C14 -/

/-- The offer carried by a URL: the value after the last `credential_offer=` is percent-decoded and
parsed as JSON. -/
def carries (url : Str) (offer : CredentialOffer) : Prop :=
  ∃ before payload, url = before ++ str! "credential_offer=" ++ payload ∧ '=' ∉ payload ∧
    (urlDecode payload).bind CredentialOffer.fromJson = some offer

/-- C14 in full, for all offers built from Rust values. -/
def C14_statement : Prop := ∀ (m : CredentialIssuerMetadata) (cs : CredentialOrIds)
  (endpoint : Option Str) (a : Option AuthorizedCodeFlow) (p : Option PreAuthorizedCodeFlow)
  (offer : CredentialOffer) (url : Str), (∀ c ∈ cs, RustEntry c) →
  createOffer m cs endpoint a p = .ok (offer, url) → carries url offer

theorem after_last : ∀ (as bs cs ds : Str), as ++ '=' :: bs = cs ++ '=' :: ds → '=' ∉ bs → '=' ∉ ds →
    bs = ds := by
  intro as
  induction as with
  | nil =>
    intro bs cs ds he hb hd
    cases cs with
    | nil => simpa using he
    | cons c cs =>
      simp only [List.nil_append, List.cons_append, List.cons.injEq] at he
      exact absurd (by rw [he.2]; simp) hb
  | cons x as ih =>
    intro bs cs ds he hb hd
    cases cs with
    | nil =>
      simp only [List.nil_append, List.cons_append, List.cons.injEq] at he
      exact absurd (by rw [← he.2]; simp) hd
    | cons c cs =>
      simp only [List.cons_append, List.cons.injEq] at he
      exact ih bs cs ds he.2 hb hd

/-- What a created URL carries is what is read from the text of the offer. -/
theorem carries_iff {m : CredentialIssuerMetadata} {cs : CredentialOrIds}
    {endpoint : Option Str} {a : Option AuthorizedCodeFlow} {p : Option PreAuthorizedCodeFlow}
    {offer : CredentialOffer} {url : Str} (h : createOffer m cs endpoint a p = .ok (offer, url))
    (hr : RustNumbers offer.ser) (o : CredentialOffer) :
    carries url o ↔ (Json.parse offer.ser.print).bind CredentialOffer.de = some o := by
  have hu := createOffer_url _ _ _ _ _ _ _ h
  have hdec : (urlDecode (urlencode offer.ser.print)).bind CredentialOffer.fromJson
      = (Json.parse offer.ser.print).bind CredentialOffer.de := by
    rw [urlDecode_urlencode]; exact offer.fromJson_ser hr
  have heq : ∀ s, '=' ∉ urlencode s := fun s =>
    payload_not_mem (payload_urlencode s) '=' (by decide) (by decide)
  constructor
  · rintro ⟨before, payload, hurl, hne, hdecode⟩
    have hp : payload = urlencode offer.ser.print := by
      refine after_last (before ++ str! "credential_offer") payload
        (offerUrlPrefix endpoint ++ str! "credential_offer") _ ?_ hne (heq _)
      rw [hu] at hurl
      simpa using hurl.symm
    rwa [hp, hdec] at hdecode
  · intro hd
    exact ⟨_, _, hu, heq _, hdec.trans hd⟩

/-- C14, partial (exact): the offer is recovered if and only if its JSON text is nested at most 127
deep and the double-precision numbers in it survive (see C100). Missing: deeper JSON-LD contexts and other
numbers (false, see `C14_refuted` and `C14_number_changed`). -/
theorem C14_recovered_iff_partial (m : CredentialIssuerMetadata) (cs : CredentialOrIds)
    (endpoint : Option Str) (a : Option AuthorizedCodeFlow) (p : Option PreAuthorizedCodeFlow)
    (offer : CredentialOffer) (url : Str) (hg : ∀ c ∈ cs, RustEntry c)
    (h : createOffer m cs endpoint a p = .ok (offer, url)) :
    carries url offer ↔ depth offer.ser ≤ 127 ∧ PlainNumbers offer.ser := by
  have hc := ((C12_create_offer _ _ _ _ _).2.1 _ _ h).2.1
  rw [carries_iff h (rust_offer offer (hc ▸ hg)), CredentialOffer.text_iff offer (hc ▸ hg)]

/-- C14, partial: whatever its numbers, an offer nested at most 127 deep is recovered up to differences of
double-precision numbers in its contexts, of at most one part in `2^49`. -/
theorem C14_near_partial (m : CredentialIssuerMetadata) (cs : CredentialOrIds)
    (endpoint : Option Str) (a : Option AuthorizedCodeFlow) (p : Option PreAuthorizedCodeFlow)
    (offer : CredentialOffer) (url : Str) (hg : ∀ c ∈ cs, RustEntry c)
    (h : createOffer m cs endpoint a p = .ok (offer, url)) (hd : depth offer.ser ≤ 127) :
    ∃ offer', carries url offer' ∧ NearOffer offer offer' := by
  have hc := ((C12_create_offer _ _ _ _ _).2.1 _ _ h).2.1
  obtain ⟨o, h1, h2⟩ := CredentialOffer.text_near offer (hc ▸ hg) hd
  exact ⟨o, (carries_iff h (rust_offer offer (hc ▸ hg)) o).2 h1, h2⟩

/-- C14, partial: in particular offers whose JSON-LD context values are nested at most 122 deep are
recovered, and so is every offer without JSON-LD context maps. -/
theorem C14_recovered_partial (m : CredentialIssuerMetadata) (cs : CredentialOrIds)
    (endpoint : Option Str) (a : Option AuthorizedCodeFlow) (p : Option PreAuthorizedCodeFlow)
    (offer : CredentialOffer) (url : Str) (hg : ∀ c ∈ cs, GoodEntry 122 c)
    (h : createOffer m cs endpoint a p = .ok (offer, url)) : carries url offer := by
  have hc := ((C12_create_offer _ _ _ _ _).2.1 _ _ h).2.1
  have hf := fits_offer (n := 122) offer (hc ▸ hg)
  exact (C14_recovered_iff_partial m cs endpoint a p offer url (fun c hc => GoodEntry.rust (hg c hc)) h).2 ⟨hf.2, hf.1⟩

namespace Ex
/-- `n` nested arrays. -/
def nest : Nat → Json
  | 0 => .null
  | n + 1 => .arr [nest n]
/-- A credential whose context has `n` nested arrays. -/
def deep (n : Nat) : CredentialOrId := .credential (.ldpVc [.map [(str! "a", nest n)]] [] none none)
end Ex

theorem depth_nest (n : Nat) : depth (Ex.nest n) = n := by
  induction n with
  | zero => rfl
  | succ n ih => simp [Ex.nest, depth, depthList, ih]

theorem good_nest (n : Nat) : GoodValue n (Ex.nest n) := by
  refine ⟨?_, ?_, (depth_nest n).le⟩
  · induction n with
    | zero => trivial
    | succ n ih => simp [Ex.nest, Normal, NormalList, ih]
  · induction n with
    | zero => trivial
    | succ n ih => simp [Ex.nest, PlainNumbers, PlainNumbersList, ih]

theorem goodEntry_deep (n : Nat) : GoodEntry n (Ex.deep n) := by
  simp [Ex.deep, GoodEntry, GoodCredential, GoodContext, UniqueKeys, good_nest]

/-- C14 is violated: an offer with a JSON-LD context nested 123 deep is created but cannot be
parsed. -/
theorem C14_refuted : ¬ C14_statement := by
  intro h
  obtain ⟨⟨o, u⟩, hr⟩ := (C12_create_offer .default [Ex.deep 123] none none none).1.2
    ⟨by simp [DistinctIds, CredentialIssuerMetadata.default], rfl, by simp [Resolvable, Ex.deep]⟩
  have hg : ∀ c ∈ [Ex.deep 123], RustEntry c := by
    simp only [List.mem_singleton, forall_eq]; exact GoodEntry.rust (goodEntry_deep 123)
  have hc := ((C14_recovered_iff_partial _ _ _ _ _ _ _ hg hr).1 (h _ _ _ _ _ o u hg hr)).1
  obtain ⟨issuer, creds, grants⟩ := o
  have h2 := ((C12_create_offer _ _ _ _ _).2.1 _ _ hr).2.1
  simp only at h2
  subst h2
  simp only [CredentialOffer.ser, depth, depthMembers, serVec, List.map, CredentialOrId.ser, Ex.deep,
    CredentialFormatProfile.ser, depthList, LinkedDataContext.ser, serMap, id, depth_nest] at hc
  omega

/-- A credential whose context has the number `9007199254740991.0`. -/
def Ex.numbered : CredentialOrId :=
  .credential (.ldpVc [.map [(str! "a", .float ⟨false, 9007199254740991, 0⟩)]] [] none none)

theorem rust_numbered : RustEntry Ex.numbered := by
  refine ⟨?_, by simp⟩
  simp only [List.mem_singleton, forall_eq]
  refine ⟨by simp [UniqueKeys], ?_⟩
  simp only [List.mem_singleton, forall_eq]
  refine ⟨trivial, ?_⟩
  rw [RustNumbers]
  refine ⟨?_, ?_, ?_, ?_⟩ <;> decide

/-- C14 is violated also by shallow offers: one with `9007199254740991.0` in a context is created, and
another offer is recovered. -/
theorem C14_number_changed : ∃ (offer offer' : CredentialOffer) (url : Str),
    createOffer .default [Ex.numbered] none none none = .ok (offer, url) ∧
    ¬ carries url offer ∧ carries url offer' := by
  obtain ⟨⟨o, u⟩, hr⟩ := (C12_create_offer .default [Ex.numbered] none none none).1.2
    ⟨by simp [DistinctIds, CredentialIssuerMetadata.default], rfl, by simp [Resolvable, Ex.numbered]⟩
  have hg : ∀ c ∈ [Ex.numbered], RustEntry c := by
    simp only [List.mem_singleton, forall_eq]; exact rust_numbered
  have h2 := ((C12_create_offer _ _ _ _ _).2.1 _ _ hr).2.1
  have hd : depth o.ser ≤ 127 := by
    have hf := fits_grants 0 o.grants
    simp only [CredentialOffer.ser, h2, depth, depthMembers, serVec, List.map, CredentialOrId.ser, Ex.numbered,
      CredentialFormatProfile.ser, depthList, LinkedDataContext.ser, serMap, id, skipNone, List.append_nil]
    have := hf.2
    omega
  obtain ⟨o', h3, -⟩ := C14_near_partial _ _ _ _ _ _ _ hg hr hd
  refine ⟨o, o', u, hr, ?_, h3⟩
  intro hc
  have hp := ((C14_recovered_iff_partial _ _ _ _ _ _ _ hg hr).1 hc).2
  simp only [CredentialOffer.ser, h2, serVec, List.map, CredentialOrId.ser, Ex.numbered,
      CredentialFormatProfile.ser, LinkedDataContext.ser, serMap, id, PlainNumbers, PlainNumbersMembers,
      PlainNumbersList] at hp
  have hs : PlainNumbers (.float ⟨false, 9007199254740991, 0⟩) := by rw [PlainNumbers]; exact hp.2.1.1.2.1.1.1
  have := Json.parse_print _ hs (by simp [depth])
  revert this
  decide +kernel

example : ∃ r, createOffer Ex.metadata [.credentialId (str! "b"), Ex.deep 122] none none
    (some ⟨str! "ü&code", some true⟩) = .ok r :=
  (C12_create_offer _ _ _ _ _).1.2 ⟨by rw [← metadata_validate_iff]; decide +kernel, rfl, by
    rintro c (_ | ⟨_, _ | ⟨_, _ | _⟩⟩)
    · exact ⟨Ex.entry (some (str! "b")) Ex.mdoc, by simp [Ex.metadata], rfl⟩
    · trivial⟩
example : ∀ c ∈ [.credentialId (str! "b"), Ex.deep 122], GoodEntry 122 c := by
  simp [goodEntry_deep]; trivial

/-! ### C37 -/

/-- C37. What `create_credential_success_response` carries for a credential `c`: for the three
encoded formats the unpadded base64url text of JSON that parses back to `c`; for `ldp_vc` the
credential itself. -/
theorem C37_lossless (x : Ext) (now : Time) (r : CredentialRequest) (c : CredentialFormatProfile)
    (nonce : Option CNonce) (resp : CredentialSuccessResponse) (t : Time)
    (h : createCredentialSuccessResponse x now r (some (.credential c)) nonce = .ok (resp, t)) :
    ((∃ ctx types cs order, c = .ldpVc ctx types cs order) →
      resp.credential = some (.credentialFormatProfile c)) ∧
    ((∀ ctx types cs order, c ≠ .ldpVc ctx types cs order) → RustCredential c →
      ∃ s b, resp.credential = some (.encoded s) ∧ IsBase64url b s ∧
        base64urlDecode s = some b ∧
        (Json.parseSlice b).bind (CredentialFormatProfile.de false) = some c) := by
  have hresp : .ok resp.credential
      = (CredentialFormatProfileOrEncoded.tryFrom c).bind fun e => .ok (some e) := by
    unfold createCredentialSuccessResponse at h
    simp only [Res.bind_eq_ok] at h
    obtain ⟨-, -, e', h1, h3⟩ := h
    replace h1 := Res.mapErr_eq_ok.1 h1
    rw [h1]
    simp only [Res.ok.injEq, Prod.mk.injEq] at h3
    obtain ⟨_, rfl, rfl, -⟩ := h3
    rfl
  refine ⟨?_, ?_⟩
  · rintro ⟨ctx, types, cs, order, rfl⟩
    simpa [CredentialFormatProfileOrEncoded.tryFrom] using hresp
  · intro hn hg
    have henc : resp.credential = some (.encoded (base64urlEncode (utf8Encode c.ser.print))) := by
      cases c with
      | ldpVc ctx types cs order => exact absurd rfl (hn ctx types cs order)
      | jwtVcJson => simpa [CredentialFormatProfileOrEncoded.tryFrom] using hresp
      | jwtVcJsonLd => simpa [CredentialFormatProfileOrEncoded.tryFrom] using hresp
      | msoMdoc => simpa [CredentialFormatProfileOrEncoded.tryFrom] using hresp
    have hf : Fits (max 5 (0 + 3)) c.ser := fits_credential (n := 0) c (by
      cases c with
      | ldpVc ctx types cs order => exact absurd rfl (hn ctx types cs order)
      | _ => exact hg)
    refine ⟨_, utf8Encode c.ser.print, henc, (C44_base64url_rfc4648 _ _).2.1 rfl,
      (C44_base64url_bijection).1 _, ?_⟩
    rw [(C45_parse_print c.ser hf.1 (hf.2.trans (by decide))).2]
    exact CredentialFormatProfile.de_ser false c hg

example (x : Ext) : ∃ resp t, createCredentialSuccessResponse x 7 ⟨Ex.ldp, none⟩
    (some (.credential Ex.mdoc)) (some ⟨str! "n", some 60⟩) = .ok (resp, t) := ⟨_, _, rfl⟩
example : RustCredential (.msoMdoc (str! "d") (some [(str! "a", ⟨none, none, none⟩),
    (str! "b", ⟨some true, none, some []⟩)]) none) := by
  simp [RustCredential, UniqueKeys]

/-- C37. Different credentials of an encoded format are carried as different texts. -/
theorem C37_injective (c c' : CredentialFormatProfile) (s : Str) (hg : RustCredential c)
    (hg' : RustCredential c')
    (h : CredentialFormatProfileOrEncoded.tryFrom c = .ok (.encoded s))
    (h' : CredentialFormatProfileOrEncoded.tryFrom c' = .ok (.encoded s)) : c = c' := by
  have key : ∀ c : CredentialFormatProfile,
      CredentialFormatProfileOrEncoded.tryFrom c = .ok (.encoded s) →
      base64urlEncode (utf8Encode c.ser.print) = s := by
    intro c h
    cases c <;> simp [CredentialFormatProfileOrEncoded.tryFrom] at h <;> exact h
  have e := (key c h).trans (key c' h').symm
  have e1 : utf8Encode c.ser.print = utf8Encode c'.ser.print := by
    have h1 := C44_base64url_bijection.1 (utf8Encode c.ser.print)
    rw [e, C44_base64url_bijection.1] at h1
    simpa using h1.symm
  have e2 := Json.print_injective _ _ (rust_credential c hg) (rust_credential c' hg') (utf8Encode_injective e1)
  have h1 := CredentialFormatProfile.de_ser false c hg
  rw [e2, CredentialFormatProfile.de_ser false c' hg'] at h1
  simpa using h1.symm

/-! ### C48 -/

/-- Any metadata. -/
def RustMetadata (m : CredentialIssuerMetadata) : Prop :=
  (∀ c ∈ m.credentialsSupported, RustCredential c.format) ∧
  ∀ a ∈ m.additionalFields, UniqueKeys a ∧ ∀ p ∈ a, RustValue p.2

/-- No additional member is named like a field. -/
def Apart (m : CredentialIssuerMetadata) : Prop := ∀ a ∈ m.additionalFields, ∀ p ∈ a, p.1 ∉ metadataFields

/-- The specification's name of the binding methods member. -/
def bindingMethodsName : Str := str! "cryptographic_binding_methods_supported"

/-- C48 in full: the round trip, and the standard member is read into the field. -/
def C48_statement : Prop :=
  (∀ m : CredentialIssuerMetadata, RustMetadata m →
    CredentialIssuerMetadata.fromJson m.ser.print = some m) ∧
  (∀ (kvs : List (Str × Json)) (methods : List Str) (c : CredentialSupported),
    CredentialSupported.de (.obj ((bindingMethodsName, serVec .str methods) :: kvs)) = some c →
    c.cryptographicBindingMethodsSupported = some methods)

theorem RustMetadata.apart {m : CredentialIssuerMetadata} (h : RustMetadata m) (ha : Apart m) :
    ∀ a ∈ m.additionalFields, UniqueKeys a ∧ ∀ p ∈ a, RustValue p.2 ∧ p.1 ∉ metadataFields :=
  fun a hm => ⟨(h.2 a hm).1, fun p hp => ⟨(h.2 a hm).2 p hp, ha a hm p hp⟩⟩

theorem RustMetadata.rust {m : CredentialIssuerMetadata} (h : RustMetadata m) : RustNumbers m.ser :=
  rust_metadata m h.1 fun a hm p hp => ((h.2 a hm).2 p hp).2

/-- What is read back, whatever the additional members. -/
theorem metadata_read (m b : CredentialIssuerMetadata) (h : RustMetadata m) (ha : Apart m) :
    CredentialIssuerMetadata.fromJson m.ser.print = some b ↔ depth m.ser ≤ 127 ∧ b = m.settle := by
  rw [m.fromJson_ser h.rust ha]
  exact read_iff h.rust (m.settle_rust h.1 fun a hm p hp => ((h.2 a hm).2 p hp).2).1
    (m.settle_de h.1 (h.apart ha)) b

/-- Two members of the same name are refused. -/
theorem fields_twice (ks : List Str) (k : Str) (hk : k ∈ ks) (kvs : List (Str × Json))
    (h : 2 ≤ (occurrences k kvs).length) : fields ks kvs = none := by
  induction ks with
  | nil => cases hk
  | cons x ks ih =>
    rw [fields]
    rcases List.mem_cons.1 hk with rfl | hk
    · have : field k kvs = none := by
        unfold field
        split
        · rename_i he; rw [he] at h; simp at h
        · rename_i he; rw [he] at h; simp at h
        · rfl
      rw [this]
    · rw [ih hk]
      cases field x kvs <;> rfl

/-- An additional member named like a field makes the document unreadable. -/
theorem C48_clash_refused (m : CredentialIssuerMetadata) (h : RustMetadata m) (ha : ¬ Apart m) :
    CredentialIssuerMetadata.fromJson m.ser.print = none := by
  unfold Apart at ha
  push Not at ha
  obtain ⟨a, hm, p, hp, hk⟩ := ha
  have key : CredentialIssuerMetadata.de (Json.settle m.ser) = none := by
    rw [(m.settle_rust h.1 fun a hm p hp => ((h.2 a hm).2 p hp).2).1]
    unfold CredentialIssuerMetadata.de
    have hf : fields metadataFields ([(str! "credential_issuer", .str m.credentialIssuer),
         (str! "authorization_server", serOpt .str m.authorizationServer),
         (str! "credential_endpoint", .str m.credentialEndpoint),
         (str! "batch_credential_endpoint", serOpt .str m.batchCredentialEndpoint),
         (str! "credentials_supported", serVec CredentialSupported.ser m.settle.credentialsSupported)]
        ++ (Json.settleMembers a)) = none := by
      refine fields_twice _ p.1 hk _ ?_
      unfold occurrences
      rw [List.length_map, List.filter_append, List.length_append]
      have h1 : 1 ≤ ((Json.settleMembers a).filter fun q => decide (q.1 = p.1)).length := by
        refine List.length_pos_of_mem (a := (p.1, Json.settle p.2)) (List.mem_filter.2 ⟨?_, by simp⟩)
        rw [Json.settleMembers_eq]
        exact List.mem_map.2 ⟨p, hp, rfl⟩
      have h2 : 1 ≤ (([(str! "credential_issuer", .str m.credentialIssuer),
         (str! "authorization_server", serOpt .str m.authorizationServer),
         (str! "credential_endpoint", .str m.credentialEndpoint),
         (str! "batch_credential_endpoint", serOpt .str m.batchCredentialEndpoint),
         (str! "credentials_supported", serVec CredentialSupported.ser m.settle.credentialsSupported)]
           : List (Str × Json)).filter fun q => decide (q.1 = p.1)).length := by
        rw [Nat.one_le_iff_ne_zero, ne_eq, List.length_eq_zero_iff, List.filter_eq_nil_iff]
        intro hn
        simp only [metadataFields, List.mem_cons, List.not_mem_nil, or_false] at hk
        simp only [List.mem_cons, List.not_mem_nil, or_false, decide_eq_true_eq, forall_eq_or_imp, forall_eq] at hn
        rcases hk with hk | hk | hk | hk | hk
        · exact hn.1 hk.symm
        · exact hn.2.1 hk.symm
        · exact hn.2.2.1 hk.symm
        · exact hn.2.2.2.1 hk.symm
        · exact hn.2.2.2.2 hk.symm
      omega
    have hs : structFlat [str! "credential_issuer", str! "authorization_server",
      str! "credential_endpoint", str! "batch_credential_endpoint",
      str! "credentials_supported"] m.settle.ser = none := by
      simp only [structFlat, CredentialIssuerMetadata.ser, CredentialIssuerMetadata.settle, Option.getD_some]
      rw [hm, Option.getD_some]
      exact (congrArg _ hf).trans rfl
    rw [hs]
  exact (Json.read_text CredentialIssuerMetadata.follows (Json.print_text _ h.rust)).trans (by rw [key, ite_self])

/-- C48, partial (exact): the metadata is read back if and only if its additional fields are present and
none is named like a field, its text is nested at most 127 deep, and its double-precision numbers survive
(see C100). Missing: all other metadata, for which the round trip fails. -/
theorem C48_same_iff_partial (m : CredentialIssuerMetadata) (h : RustMetadata m) :
    CredentialIssuerMetadata.fromJson m.ser.print = some m ↔
      m.additionalFields ≠ none ∧ Apart m ∧ depth m.ser ≤ 127 ∧ PlainNumbers m.ser := by
  by_cases ha : Apart m
  · have hs := (m.settle_rust h.1 fun a hm p hp => ((h.2 a hm).2 p hp).2).1
    rw [metadata_read m m h ha, ← Json.settle_eq_iff _ h.rust, hs]
    constructor
    · rintro ⟨h1, h2⟩
      refine ⟨?_, ha, h1, by rw [← h2]⟩
      rw [h2]
      simp [CredentialIssuerMetadata.settle]
    · rintro ⟨h1, -, h2, h3⟩
      refine ⟨h2, ?_⟩
      have e := m.settle_de h.1 (h.apart ha)
      rw [h3, CredentialIssuerMetadata.de_ser m h.1 fun a hm =>
        ⟨(h.2 a hm).1, fun p hp => ⟨((h.2 a hm).2 p hp).1, ha a hm p hp⟩⟩] at e
      rw [← Option.some.inj e]
      obtain ⟨issuer, server, endpoint, batch, supported, additional⟩ := m
      cases additional with
      | none => exact absurd rfl h1
      | some a => rfl
  · rw [C48_clash_refused m h ha]
    simp [ha]

/-- C48, partial: serialising and parsing yields the same metadata, except that absent additional
fields become an empty map and that double-precision numbers change by at most one part in `2^49`. -/
theorem C48_round_trip_partial (m : CredentialIssuerMetadata) (h : RustMetadata m) (ha : Apart m)
    (hd : depth m.ser ≤ 127) :
    ∃ m', CredentialIssuerMetadata.fromJson m.ser.print = some m' ∧ NearMetadata m m' ∧
      (PlainNumbers m.ser → m' = { m with additionalFields := some (m.additionalFields.getD []) }) := by
  have hs := m.settle_rust h.1 fun a hm p hp => ((h.2 a hm).2 p hp).2
  refine ⟨m.settle, (metadata_read m _ h ha).2 ⟨hd, rfl⟩, hs.2.2, ?_⟩
  intro hp
  have e := m.settle_de h.1 (h.apart ha)
  rw [← hs.1, Json.settle_plain hp, CredentialIssuerMetadata.de_ser m h.1 fun a hm =>
    ⟨(h.2 a hm).1, fun p hp => ⟨((h.2 a hm).2 p hp).1, ha a hm p hp⟩⟩] at e
  exact (Option.some.inj e).symm

/-- C48 is violated for every metadata value without additional fields: parsing gives another
value. -/
theorem C48_none_changes (m : CredentialIssuerMetadata) (h : RustMetadata m)
    (ha : m.additionalFields = none) : CredentialIssuerMetadata.fromJson m.ser.print ≠ some m :=
  fun he => ((C48_same_iff_partial m h).1 he).1 ha

/-- The standard member is ignored: a document without the misspelt member never has binding
methods. -/
theorem C48_standard_member_ignored (kvs : List (Str × Json)) (c : CredentialSupported)
    (hk : ∀ p ∈ kvs, p.1 ≠ str! "cryptographic_binding_mehtods_supported")
    (h : CredentialSupported.de (.obj kvs) = some c) :
    c.cryptographicBindingMethodsSupported = none := by
  have hf : field (str! "cryptographic_binding_mehtods_supported") kvs = some none := by
    simp only [field, occurrences]
    rw [List.filter_eq_nil_iff (l := kvs) |>.2 (by simpa using hk)]
    rfl
  unfold CredentialSupported.de at h
  cases hs : structFlat [str! "id", str! "cryptographic_binding_mehtods_supported",
      str! "cryptographic_suites_supported", str! "display"] (.obj kvs) with
  | none => rw [hs] at h; simp at h
  | some p =>
    rw [hs] at h
    obtain ⟨fs, rest⟩ := p
    simp only [structFlat, fields, hf, Option.map_eq_some_iff, Prod.mk.injEq] at hs
    obtain ⟨fs', hfs, rfl, -⟩ := hs
    split at h
    · rename_i id binding suites display rest' heq
      simp only [Option.some.injEq, Prod.mk.injEq] at heq
      have hb : binding = none := by
        rw [heq.1] at hfs
        split at hfs
        · rename_i o os h1 h2
          split at h2
          · rename_i o2 os2 h3 h4
            simp only [Option.some.injEq] at h2 h3 hfs
            rw [← h2, ← h3] at hfs
            simp only [List.cons.injEq] at hfs
            exact hfs.2.1.symm
          · cases h2
        · cases hfs
      subst hb
      simp only [opt] at h
      simp only [Option.bind_eq_bind, Option.bind_eq_some_iff] at h
      obtain ⟨_, -, _, h1, _, -, _, -, _, -, h2⟩ := h
      simp only [Option.some.injEq] at h1 h2
      rw [← h2, ← h1]
    · cases h

/-- C48 is violated in both parts. -/
theorem C48_refuted : ¬ C48_statement := by
  intro h
  refine C48_none_changes .default ⟨by simp [CredentialIssuerMetadata.default],
    by simp [CredentialIssuerMetadata.default]⟩ rfl (h.1 .default
    ⟨by simp [CredentialIssuerMetadata.default], by simp [CredentialIssuerMetadata.default]⟩)

/-- The second part alone is violated as well. -/
theorem C48_binding_methods_lost : ∃ (kvs : List (Str × Json)) (methods : List Str)
    (c : CredentialSupported),
    CredentialSupported.de (.obj ((bindingMethodsName, serVec .str methods) :: kvs)) = some c ∧
    c.cryptographicBindingMethodsSupported ≠ some methods :=
  ⟨[(str! "format", .str (str! "mso_mdoc")), (str! "doctype", .str (str! "d"))], [str! "did"],
    Ex.entry none (.msoMdoc (str! "d") none none), by decide +kernel, by decide +kernel⟩

theorem rust_ex_metadata : RustMetadata { Ex.metadata with
    additionalFields := some [(str! "display", .arr [.num 1]), (str! "x", .float ⟨false, 4503599627370496, -52⟩)] } ∧
    Apart { Ex.metadata with
    additionalFields := some [(str! "display", .arr [.num 1]), (str! "x", .float ⟨false, 4503599627370496, -52⟩)] } := by
  refine ⟨⟨?_, ?_⟩, ?_⟩
  · simp [Ex.metadata, Ex.entry, Ex.ldp, Ex.mdoc, RustCredential, RustContext]
  · rintro a ⟨⟩
    refine ⟨by simp [UniqueKeys], ?_⟩
    rintro p (_ | ⟨_, _ | ⟨_, _ | _⟩⟩)
    · simp [RustValue, Normal, NormalList, RustNumbers, RustNumbersList]
    · refine ⟨trivial, ?_⟩
      rw [RustNumbers]
      refine ⟨?_, ?_, ?_, ?_⟩ <;> decide
  · rintro a ⟨⟩
    rintro p (_ | ⟨_, _ | ⟨_, _ | _⟩⟩) <;> simp [metadataFields]

/-! ### C49 -/

/-- The token request parameters as the specification names them. -/
def standardTokenRequest (code : Str) (pin : Option UInt64) : Json :=
  .obj ([(str! "grant_type", .str (str! "urn:ietf:params:oauth:grant-type:pre-authorized_code")),
    (str! "pre-authorized_code", .str code)] ++ skipNone (str! "user_pin") serU64 pin)

/-- C49 in full. -/
def C49_statement : Prop :=
  (∀ code pin, AccessTokenRequest.fromJson (standardTokenRequest code pin).print
    = some ⟨.preAuthorizedCodeFlow code pin⟩) ∧
  ∀ r : AccessTokenRequest, AccessTokenRequest.fromJson r.ser.print = some r

/-- C49, partial: the library's own serialisation parses back. Missing: the standard parameters
(false for every code and PIN, see `C49_standard_rejected`). -/
theorem C49_own_format_partial (r : AccessTokenRequest) :
    AccessTokenRequest.fromJson r.ser.print = some r := by
  have hf := fits_tokenRequest 0 r
  rw [r.fromJson_ser (Json.rust_of_plain _ hf.1), Json.parse_print _ hf.1 (hf.2.trans (by decide))]
  exact AccessTokenRequest.de_ser r

/-- A document whose `grant_type` is a string never deserialises. -/
theorem C49_string_grant_type_rejected (kvs : List (Str × Json)) (g : Str)
    (hm : (str! "grant_type", .str g) ∈ kvs) : AccessTokenRequest.de (.obj kvs) = none := by
  have hmem : .str g ∈ occurrences (str! "grant_type") kvs := by
    simp only [occurrences, List.mem_map, List.mem_filter]
    exact ⟨_, ⟨hm, by simp⟩, rfl⟩
  unfold AccessTokenRequest.de
  simp only [struct, fields, field]
  cases ho : occurrences (str! "grant_type") kvs with
  | nil => rw [ho] at hmem; cases hmem
  | cons a l =>
    cases l with
    | nil =>
      rw [ho] at hmem
      simp only [List.mem_singleton] at hmem
      subst hmem
      rfl
    | cons b l => rfl

/-- Every standard pre-authorized token request is rejected. -/
theorem C49_standard_rejected (code : Str) (pin : Option UInt64) :
    AccessTokenRequest.fromJson (standardTokenRequest code pin).print = none := by
  have hf : Fits 1 (standardTokenRequest code pin) :=
    fits_obj (forall_append (forall_cons (fits_str _ _) (forall_cons (fits_str _ _) forall_nil))
      (fits_skipNone _ fun _ _ => fits_u64 _ _))
  refine (Json.read_parse AccessTokenRequest.follows (Json.parse_print _ hf.1 (hf.2.trans (by decide)))).trans ?_
  exact C49_string_grant_type_rejected _ _ (List.mem_cons_self ..)

/-- C49 is violated. -/
theorem C49_refuted : ¬ C49_statement := by
  intro h
  have := h.1 [] none
  rw [C49_standard_rejected] at this
  cases this

/-! ### The hypotheses of C45, C14, C48 and C49 at examples -/

theorem Ex.doc_plain : PlainNumbers Ex.doc := by simp [Ex.doc, PlainNumbers, PlainNumbersMembers, PlainNumbersList]
example : Json.parse Ex.doc.print = some Ex.doc := (C45_parse_print Ex.doc Ex.doc_plain (by decide +kernel)).1
example (r s : Str) (h : Ex.doc.print ++ r = (Json.arr [Ex.doc]).print ++ s) : False :=
  absurd (C45_no_prefix_ambiguity Ex.doc (.arr [Ex.doc]) r s (Json.rust_of_plain _ Ex.doc_plain)
    (Json.rust_of_plain _ (by simp [PlainNumbers, PlainNumbersList, Ex.doc_plain])) (by simp [Ex.doc]) (by simp) h).1
    (by simp [Ex.doc])
example : AccessTokenRequest.de (.obj [(str! "x", .null), (str! "grant_type", .str (str! "authorization_code"))])
    = none := C49_string_grant_type_rejected _ (str! "authorization_code") (by simp)
/-- C48: one additional member, which is no field. -/
example : ∃ m', CredentialIssuerMetadata.fromJson
    ({ Ex.metadata with additionalFields := some [(str! "x", .num 1)] } : CredentialIssuerMetadata).ser.print = some m' ∧
    NearMetadata { Ex.metadata with additionalFields := some [(str! "x", .num 1)] } m' := by
  have hr : RustMetadata { Ex.metadata with additionalFields := some [(str! "x", .num 1)] } :=
    ⟨by simp [Ex.metadata, Ex.entry, Ex.ldp, Ex.mdoc, RustCredential, RustContext],
      by simp [UniqueKeys, RustValue, Normal, RustNumbers]⟩
  obtain ⟨m', h, hn, -⟩ := C48_round_trip_partial { Ex.metadata with additionalFields := some [(str! "x", .num 1)] }
    hr (by simp [Apart, metadataFields]) (by decide +kernel)
  exact ⟨m', h, hn⟩

end Oid4vci
