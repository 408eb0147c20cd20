import Verif.Spec.Asked
import Verif.Props.Documents
import Verif.Props.Text
import Verif.Spec.JwtText

/-! The exact texts of proof JWTs and of the protocol's documents. -/

namespace Oid4vci

open Spec Serde

/-- C67. The body of a proof JWT, in either shape. -/
theorem C67_body (x : Ext) (v : Json) (b : ProofJwtBody) :
    ProofJwtBody.de x v = some b ↔ BodyDoc x v b := by
  have hi : ∀ (v : Json) (t : Time), deTime x v = some t ↔ IsInstant x v t := fun _ _ => deTime_eq
  have ht : deTime x .null = none := rfl
  unfold ProofJwtBody.de
  constructor
  · intro h
    split at h
    · rename_i hs
      simp only [Option.bind_eq_bind, Option.bind_eq_some_iff] at h
      obtain ⟨a0, e0, a1, e1, a2, e2, a3, e3, a4, e4, a5, e5, a6, e6, h⟩ := h
      cases h
      exact ⟨_, _, _, _, _, _, _, struct_iff.1 hs, (opt_iff text_iff rfl).1 e0, (req_iff text_iff).1 e1,
        (opt_iff text_iff rfl).1 e2, (req_iff hi).1 e3, (req_iff text_iff).1 e4,
        (opt_iff hi ht).1 e5, (opt_iff hi ht).1 e6⟩
    · cases h
  · rintro ⟨_, _, _, _, _, _, _, hs, h0, h1, h2, h3, h4, h5, h6⟩
    have := struct_iff.2 hs
    unfold claimNames at this
    rw [this]
    simp only [(opt_iff text_iff rfl).2 h0, (req_iff text_iff).2 h1, (opt_iff text_iff rfl).2 h2,
      (req_iff hi).2 h3, (req_iff text_iff).2 h4, (opt_iff hi ht).2 h5, (opt_iff hi ht).2 h6,
      Option.bind_eq_bind, Option.bind_some]

theorem segment_of {α : Type} {de : Json → Option α} {Doc : Json → α → Prop}
    (h : ∀ v a, de v = some a ↔ Doc v a) (s : Str) (a : α) :
    (∃ b, base64urlDecode s = some b ∧ (Json.parseSlice b).bind de = some a) ↔ SegmentOf Doc a s := by
  simp only [SegmentOf, TextOf, Option.bind_eq_some_iff, C65_bytes, h, (C44_base64url_rfc4648 _ _).1]
  constructor
  · rintro ⟨b, h1, j, ⟨t, h2, h3, h4⟩, h5⟩; exact ⟨b, t, h1, h2, j, h3, h4, h5⟩
  · rintro ⟨b, t, h1, h2, j, h3, h4, h5⟩; exact ⟨b, h1, j, ⟨t, h2, h3, h4⟩, h5⟩

theorem bodySegment_iff (x : Ext) (s : Str) (body : ProofJwtBody) :
    (∃ b, base64urlDecode s = some b ∧ ProofJwtBody.fromSlice x b = some body) ↔ BodySegment x body s := by
  simp only [BodySegment, ProofJwtBody.fromSlice_iff, (C44_base64url_rfc4648 _ _).1, C67_body]
  constructor
  · rintro ⟨b, h1, v, h2, h3⟩; exact ⟨b, v, h1, h2, h3⟩
  · rintro ⟨b, v, h1, h2, h3⟩; exact ⟨b, h1, v, h2, h3⟩

/-- C67. A body that is JSON throughout is such a segment. -/
theorem C67_strict_body (x : Ext) (s : Str) (body : ProofJwtBody) (h : SegmentOf (BodyDoc x) body s) :
    BodySegment x body s := by
  obtain ⟨b, h1, h2⟩ := (segment_of (C67_body x) s body).2 h
  obtain ⟨j, h3, h4⟩ := Option.bind_eq_some_iff.1 h2
  exact (bodySegment_iff x s body).1 ⟨b, h1, by rw [ProofJwtBody.fromSlice_of_parse x h3, h4]⟩

/-- C67. A string is read as a JWT exactly if it is the text of that JWT. -/
theorem C67_jwt (x : Ext) (s : Str) (j : ProofJwt) : ProofJwt.fromStr x s = .ok j ↔ JwtText x j s := by
  rw [ProofJwt.fromStr_eq_ok]
  unfold JwtText
  simp only [← segment_of C63_header, ← bodySegment_iff]
  constructor
  · rintro ⟨hs, bs, rest, hb, bb, h1, h2, h3, h4, h5, h6⟩
    obtain ⟨-, h1, h1'⟩ := dotted_iff.1 h1
    exact ⟨hs, bs, rest, h1, h1', ⟨hb, h2, h4⟩, ⟨bb, h3, h5⟩, h6⟩
  · rintro ⟨hs, bs, rest, h1, h1', ⟨hb, h2, h4⟩, ⟨bb, h3, h5⟩, h6⟩
    exact ⟨hs, bs, rest, hb, bb, dotted_iff.2 ⟨by simp, h1, h1'⟩, h2, h3, h4, h5, h6⟩

/-- C67. A string is the text of at most one JWT. -/
theorem C67_unique (x : Ext) (s : Str) (j j' : ProofJwt) (h : JwtText x j s) (h' : JwtText x j' s) :
    j = j' := by
  have := ((C67_jwt x s j).2 h).symm.trans ((C67_jwt x s j').2 h')
  cases this; rfl

/-- The text of a JWT with dots, white space and further members is the text of no other. -/
example (j : ProofJwt) (h : JwtText Ex.ext j (str! "eyAiYWxnIjoiRVMyNTYiICwgInR5cCIgOiAib3BlbmlkNHZjaS1wcm9vZitqd3QiLCJraWQiOiJrIiwieCI6WzEuNWUzXX0.eyJhdWQiOiJhIiwiaWF0IjoiMiIsIm5vbmNlIjoiXHUwMDZlIiwienp6IjpudWxsfQ.c2ln"))
    : j.body = ⟨none, str! "a", none, 2, str! "n", none, none⟩ :=
  congrArg ProofJwt.body (C67_unique Ex.ext _ j ⟨⟨str! "openid4vci-proof+jwt", .ES256, some (.keyId (str! "k"))⟩,
      ⟨none, str! "a", none, 2, str! "n", none, none⟩, some (str! "c2ln")⟩ h ((C67_jwt _ _ _).1 (by decide +kernel)))

/-- C67. Everything after the second dot up to the third is the signature, taken as it is. -/
theorem C67_signature (x : Ext) (header body : Str) (rest rest' : List Str) (j : ProofJwt)
    (hr : ∀ p ∈ rest, NoDot p) (hr' : ∀ p ∈ rest', NoDot p)
    (hn : ∀ p ∈ [header, body], NoDot p)
    (h : ProofJwt.fromStr x (dotted (header :: body :: rest)) = .ok j) :
    ProofJwt.fromStr x (dotted (header :: body :: rest')) = .ok { j with signature := rest'.head? } := by
  obtain ⟨hs, bs, r, h1, h1', h2, h3, h4⟩ := (C67_jwt _ _ _).1 h
  have e : header :: body :: rest = hs :: bs :: r := by
    have h0 : ∀ p ∈ header :: body :: rest, NoDot p := by
      intro p hp
      rcases List.mem_cons.1 hp with rfl | hp
      · exact hn _ (by simp)
      rcases List.mem_cons.1 hp with rfl | hp
      · exact hn _ (by simp)
      · exact hr p hp
    rw [← splitOn_dotted _ (by simp) h0, ← splitOn_dotted _ (by simp) h1, h1']
  obtain ⟨rfl, rfl, rfl⟩ : header = hs ∧ body = bs ∧ rest = r := by simpa using e
  refine (C67_jwt _ _ _).2 ⟨header, body, rest', ?_, rfl, h2, h3, rfl⟩
  intro p hp
  rcases List.mem_cons.1 hp with rfl | hp
  · exact hn _ (by simp)
  rcases List.mem_cons.1 hp with rfl | hp
  · exact hn _ (by simp)
  · exact hr' p hp

/-- Header `{ "alg":"ES256" , "typ" : "openid4vci-proof+jwt","kid":"k","x":[1.5e3]}`, body
`{"aud":"a","iat":"2","nonce":"\\u006e","zzz":null}`. -/
example : JwtText Ex.ext
    ⟨⟨str! "openid4vci-proof+jwt", .ES256, some (.keyId (str! "k"))⟩,
      ⟨none, str! "a", none, 2, str! "n", none, none⟩, some (str! "c2ln")⟩
    (str! "eyAiYWxnIjoiRVMyNTYiICwgInR5cCIgOiAib3BlbmlkNHZjaS1wcm9vZitqd3QiLCJraWQiOiJrIiwieCI6WzEuNWUzXX0.eyJhdWQiOiJhIiwiaWF0IjoiMiIsIm5vbmNlIjoiXHUwMDZlIiwienp6IjpudWxsfQ.c2ln") :=
  (C67_jwt _ _ _).1 (by decide +kernel)

/-! ### C96: the body need not be JSON -/

/-- C96, full statement: the body of an accepted proof JWT is UTF-8 (RFC 7519 section 7.2: "a UTF-8-encoded
representation of a completely valid JSON object"). -/
def C96_statement : Prop := ∀ (x : Ext) (hs bs : Str) (rest : List Str) (bb : Bytes) (j : ProofJwt),
  (∀ p ∈ hs :: bs :: rest, NoDot p) → IsBase64url bb bs →
  ProofJwt.fromStr x (dotted (hs :: bs :: rest)) = .ok j → ∃ s, IsUtf8 s bb

/-- C96 is violated by every body: a further member with a value of arbitrary octets, as long as its quotes
and brackets match, changes nothing. -/
theorem C96_skipped (x : Ext) (h : ProofJwtHeader) (b : ProofJwtBody) (ht : TimesOk x b) (hs bs : Str)
    (bb : Bytes) (k n s t u : Str) (hh : IsDocSegment h.ser.print hs) (hk : k ∉ claimNames)
    (hn : StringText k n) (hs' : Utf8Text n s) (hv : SkippedValue t)
    (hu : Utf8Text (b.ser x).print ('{' :: u))
    (ho : Octets bb ('{' :: (s ++ ':' :: (t ++ ',' :: u)))) (hb : IsBase64url bb bs) :
    ProofJwt.fromStr x (dotted [hs, bs]) = .ok ⟨h, b, none⟩ := by
  have hf := body_fits x b
  have hp := C65_printed _ hf.1 hf.2
  have hde := ProofJwtBody.de_ser x b ht
  obtain ⟨kvs, hkvs⟩ : ∃ kvs, b.ser x = .obj kvs := ⟨_, rfl⟩
  have hne : kvs ≠ [] := by
    rintro rfl
    unfold ProofJwtBody.ser at hkvs
    simp at hkvs
  have hd := hf.2
  rw [hkvs] at hp hu hde hd
  have hu' := Json.utf8Text_iff.1 hu
  obtain ⟨w, y, w', hw, hy, hw', e⟩ := hp
  rw [e, Json.wide_append, Json.wide_append, Json.wide_ws hw, Json.wide_ws hw'] at hu'
  cases hy with
  | emptyObject => exact absurd rfl hne
  | object k1 v1 kvs w1 s1 t1 hw1 hm hms =>
    rw [Json.wide_ascii (by decide), Json.wide_append, Json.wide_append, Json.wide_ws hw1] at hu'
    have hw0 : w = [] := by
      cases w with
      | nil => rfl
      | cons c w =>
        simp only [List.cons_append, List.cons.injEq] at hu'
        have := hw c (by simp)
        rw [← hu'.1] at this
        exact absurd this (by decide)
    subst hw0
    simp only [List.nil_append, List.cons_append, List.cons.injEq, true_and] at hu'
    have hd' : depth (Json.obj ((k1, v1) :: kvs)) ≤ 127 := hd
    simp only [depth, depthMembers] at hd'
    have hl : LooseText claimNames (.obj ((k, .null) ::
        (((k1, v1) :: kvs).map fun p => (p.1, if p.1 ∈ claimNames then p.2 else .null)))) bb := by
      refine .object _ [] ('{' :: ([] ++ (s ++ [] ++ ':' :: ([] ++ t)) ++ ([] ++ ',' :: (w1 ++ Json.wide s1
        ++ Json.wide t1)))) w' bb (by simp [Ws]) ?_ hw' ?_
      · exact .members _ _ _ _ _ _ (by simp [Ws]) (.other _ _ _ _ _ _ hk hn hs' (by simp [Ws]) (by simp [Ws]) hv)
          (.more _ _ _ _ _ _ _ (by simp [Ws]) hw1 (Json.loose_member hm (show depth v1 ≤ 127 by omega))
            (Json.loose_members kvs hms (show depthMembers kvs ≤ 127 by omega)))
      · rw [hu'] at ho
        simpa using ho
    have hfs : ProofJwtBody.fromSlice x bb = some b := by
      rw [ProofJwtBody.fromSlice_of_loose x hl]
      have e2 : Json.forget claimNames (.obj ((k, .null) :: (k1, v1) :: kvs)) = .obj ((k, .null) ::
        (((k1, v1) :: kvs).map fun p => (p.1, if p.1 ∈ claimNames then p.2 else .null))) := by
        simp only [Json.forget, List.map_cons, hk, if_false]
      have e3 := ProofJwtBody.de_forget x (.obj ((k, .null) :: (k1, v1) :: kvs))
      unfold claimNames at e2 hk
      unfold claimNames
      rw [← e2, e3]
      rw [← hde]
      unfold ProofJwtBody.de
      have : struct [str! "iss", str! "aud", str! "sub", str! "iat", str! "nonce", str! "nbf", str! "exp"]
          (.obj ((k, .null) :: (k1, v1) :: kvs)) = struct [str! "iss", str! "aud", str! "sub", str! "iat",
          str! "nonce", str! "nbf", str! "exp"] (.obj ((k1, v1) :: kvs)) := by
        exact fields_insert [] _ k .null _ hk
      rw [this]
    refine ProofJwt.fromStr_eq_ok.2 ⟨hs, bs, [], _, bb, dotted_iff.2 ⟨by simp, ?_, rfl⟩,
      (C44_base64url_rfc4648 _ _).1.2 hh, (C44_base64url_rfc4648 _ _).1.2 hb, ?_, hfs, rfl⟩
    · intro p hp
      simp only [List.mem_cons, List.not_mem_nil, or_false] at hp
      rcases hp with rfl | rfl
      · rw [← (C44_base64url_rfc4648 _ _).2.2 hh]; exact noDot_encode _
      · rw [← (C44_base64url_rfc4648 _ _).2.2 hb]; exact noDot_encode _
    · rw [parseSlice_print (header_fits h)]; exact ProofJwtHeader.de_ser h

theorem utf8_bound {s : Str} {b : Bytes} (h : IsUtf8 s b) : (255 : UInt8) ∉ b := by
  obtain ⟨os, h1, h2⟩ := h
  intro hm
  have : (255 : Nat) ∈ b.map UInt8.toNat := List.mem_map.2 ⟨255, hm, rfl⟩
  rw [h2] at this
  clear h2 hm
  induction h1 with
  | nil => simp at this
  | @cons c o s os hc _ ih =>
    rw [List.flatten_cons] at this
    rcases List.mem_append.1 this with h | h
    · have hv : c.toNat < 0x110000 := by
        have : c.toNat < 0xD800 ∨ 0xDFFF < c.toNat ∧ c.toNat < 0x110000 := c.valid
        omega
      generalize c.toNat = m at hc hv
      cases hc <;> simp only [List.mem_cons, List.not_mem_nil, or_false] at h <;> omega
    · exact ih h

/-- C96 does not hold: `{"x":"\xFF",…}`. -/
theorem C96_refuted : ¬ C96_statement := by
  intro hst
  have hu : Utf8Text (Ex.body.ser Ex.ext).print ('{' :: (Json.wide (Ex.body.ser Ex.ext).print).tail) :=
    Json.utf8Text_iff.2 (by decide +kernel)
  let octs : Str := '{' :: (str! "\"x\"" ++ ':' :: (['"', Char.ofNat 255, '"'] ++ ',' ::
    (Json.wide (Ex.body.ser Ex.ext).print).tail))
  have hn : Json.Narrow octs := by
    unfold Json.Narrow
    decide +kernel
  have hv : SkippedValue ['"', Char.ofNat 255, '"'] :=
    .string _ ⟨[Char.ofNat 255], .plain _ _ (by decide) (by decide) (by decide) .nil, rfl⟩
  have hname : StringText (str! "x") (str! "\"x\"") :=
    ⟨str! "x", .unescaped _ _ _ (by decide) (by decide) (by decide) .nil, rfl⟩
  have hok := C96_skipped Ex.ext Ex.header Ex.body Ex.timesOk_body _ _ (Json.unoctets octs) (str! "x") _ _ _ _
    (isBase64url_encode _) (by decide) hname (Json.utf8Text_iff.2 (by decide +kernel)) hv hu
    (Json.octets_iff.2 (Json.octets_unoctets hn).symm) (isBase64url_encode _)
  obtain ⟨s, hs⟩ := hst Ex.ext _ _ [] _ _ (by
    intro p hp
    simp only [List.mem_cons, List.not_mem_nil, or_false] at hp
    rcases hp with rfl | rfl <;> exact noDot_encode _) (isBase64url_encode _) hok
  exact utf8_bound hs (by decide +kernel)

/-- C96, what holds: the header is a JSON text in UTF-8, and so is the body unless it is an object; in an
object the names of all members and the values of the registered claims are. Missing: the values of the
other members, of which only quotes and brackets are checked. -/
theorem C96_json_partial (x : Ext) (hs bs : Str) (rest : List Str) (j : ProofJwt)
    (hnd : ∀ p ∈ hs :: bs :: rest, NoDot p) (h : ProofJwt.fromStr x (dotted (hs :: bs :: rest)) = .ok j) :
    (∃ hb s v, IsBase64url hb hs ∧ IsUtf8 s hb ∧ JsonText v s) ∧
    ∃ bb v, IsBase64url bb bs ∧ LooseText claimNames v bb ∧
      ((∀ kvs, v ≠ .obj kvs) → ∃ s, IsUtf8 s bb ∧ JsonText v s) := by
  obtain ⟨hs', bs', r, h1, h1', h2, h3, h4⟩ := (C67_jwt _ _ _).1 h
  have e : hs :: bs :: rest = hs' :: bs' :: r := by
    rw [← splitOn_dotted _ (by simp) hnd, ← splitOn_dotted _ (by simp) h1, h1']
  obtain ⟨rfl, rfl, rfl⟩ : hs = hs' ∧ bs = bs' ∧ rest = r := by simpa using e
  obtain ⟨hb, s, e1, e2, v, e3, -⟩ := h2
  obtain ⟨bb, w, e4, e5, -⟩ := h3
  refine ⟨⟨hb, s, v, e1, e2, e3⟩, bb, w, e4, e5, ?_⟩
  intro hw
  cases e5 with
  | object kvs => exact absurd rfl (hw kvs)
  | other _ s _ _ h1 _ h2 => exact ⟨s, h2, h1⟩

/-- A lone surrogate in an unknown member is passed over; in a claim it is an error. -/
example : ProofJwtBody.fromSlice Ex.ext (utf8Encode (str! "{\"z\":[\"\\ud800\",1e999],\"aud\":\"a\",\"iat\":\"2\",\"nonce\":\"n\"}"))
      = some ⟨none, str! "a", none, 2, str! "n", none, none⟩ ∧
    ProofJwtBody.fromSlice Ex.ext (utf8Encode (str! "{\"aud\":\"\\ud800\",\"iat\":\"2\",\"nonce\":\"n\"}")) = none ∧
    ProofJwtBody.fromSlice Ex.ext (utf8Encode (str! "{\"z\":[1,],\"aud\":\"a\",\"iat\":\"2\",\"nonce\":\"n\"}")) = none := by
  decide +kernel

theorem seen_of {α : Type} {σ : Shape} {de : Json → Option α} {Doc : Json → α → Prop}
    (h : ∀ v a, de v = some a ↔ Doc v a) (s : Str) (a : α) :
    (Json.see σ s).bind de = some a ↔ SeenOf σ Doc a s := by
  simp only [SeenOf, Option.bind_eq_some_iff, Json.see_iff, Json.maxDepth, h, and_assoc]

theorem json_of {α : Type} {σ : Shape} {de : Json → Option α} {Doc : Json → α → Prop} (hf : Json.Follows σ de)
    (h : ∀ v a, de v = some a ↔ Doc v a) {s : Str} {v : Json} (hs : JsonText v s) (hd : depth v ≤ 127) (a : α) :
    (Json.see σ s).bind de = some a ↔ Doc v a := by
  rw [Json.read_parse hf ((C65_grammar s v).2 ⟨hs, hd⟩), h]

/-- C68. The texts of the documents which the parties exchange are read exactly as specified. -/
theorem C68_texts (s : Str) :
    (∀ o, CredentialOffer.fromJson s = some o ↔ SeenOf offerAsks OfferDoc o s) ∧
    (∀ r, AccessTokenRequest.fromJson s = some r ↔ SeenOf tokenRequestAsks TokenRequestDoc r s) ∧
    (∀ r, AccessTokenSuccessResponse.fromJson s = some r ↔ SeenOf tokenResponseAsks TokenResponseDoc r s) ∧
    (∀ r, CredentialRequest.fromJson s = some r ↔ SeenOf requestAsks RequestDoc r s) ∧
    (∀ r, CredentialSuccessResponse.fromJson s = some r ↔ SeenOf responseAsks ResponseDoc r s) ∧
    (∀ m, CredentialIssuerMetadata.fromJson s = some m ↔ SeenOf metadataAsks MetadataDoc m s) :=
  ⟨seen_of C63_offer s, seen_of C63_tokenRequest s, seen_of C63_tokenResponse s, seen_of C63_request s,
    seen_of C63_response s, seen_of C63_metadata s⟩

/-- C68. In particular a JSON text of at most 127 levels is read as what its document describes. -/
theorem C68_json (s : Str) (v : Json) (hs : JsonText v s) (hd : depth v ≤ 127) :
    (∀ o, CredentialOffer.fromJson s = some o ↔ OfferDoc v o) ∧
    (∀ r, AccessTokenRequest.fromJson s = some r ↔ TokenRequestDoc v r) ∧
    (∀ r, AccessTokenSuccessResponse.fromJson s = some r ↔ TokenResponseDoc v r) ∧
    (∀ r, CredentialRequest.fromJson s = some r ↔ RequestDoc v r) ∧
    (∀ r, CredentialSuccessResponse.fromJson s = some r ↔ ResponseDoc v r) ∧
    (∀ m, CredentialIssuerMetadata.fromJson s = some m ↔ MetadataDoc v m) :=
  ⟨json_of CredentialOffer.follows C63_offer hs hd, json_of AccessTokenRequest.follows C63_tokenRequest hs hd,
    json_of AccessTokenSuccessResponse.follows C63_tokenResponse hs hd,
    json_of CredentialRequest.follows C63_request hs hd,
    json_of CredentialSuccessResponse.follows C63_response hs hd,
    json_of CredentialIssuerMetadata.follows C63_metadata hs hd⟩

/-- C68. White space between the tokens, the way strings are escaped, the order of the members and
further members do not matter: whatever text denotes the same document gives the same request. -/
theorem C68_text_irrelevant (s s' : Str) (v : Json) (h : JsonText v s) (h' : JsonText v s') (hd : depth v ≤ 127) :
    CredentialOffer.fromJson s = CredentialOffer.fromJson s' ∧
    AccessTokenRequest.fromJson s = AccessTokenRequest.fromJson s' ∧
    AccessTokenSuccessResponse.fromJson s = AccessTokenSuccessResponse.fromJson s' ∧
    CredentialRequest.fromJson s = CredentialRequest.fromJson s' ∧
    CredentialSuccessResponse.fromJson s = CredentialSuccessResponse.fromJson s' ∧
    CredentialIssuerMetadata.fromJson s = CredentialIssuerMetadata.fromJson s' := by
  have h1 := C68_json s v h hd
  have h2 := C68_json s' v h' hd
  refine ⟨?_, ?_, ?_, ?_, ?_, ?_⟩ <;> refine Option.ext fun a => ?_
  · exact (h1.1 a).trans (h2.1 a).symm
  · exact (h1.2.1 a).trans (h2.2.1 a).symm
  · exact (h1.2.2.1 a).trans (h2.2.2.1 a).symm
  · exact (h1.2.2.2.1 a).trans (h2.2.2.2.1 a).symm
  · exact (h1.2.2.2.2.1 a).trans (h2.2.2.2.2.1 a).symm
  · exact (h1.2.2.2.2.2 a).trans (h2.2.2.2.2.2 a).symm

example : SeenOf tokenRequestAsks TokenRequestDoc ⟨.preAuthorizedCodeFlow (str! "c") (some 12)⟩
    (str! " {\"x\":{},\"grant_type\" : { \"pre_authorized_code\":\"\\u0063\" ,\"user_pin\":12, \"grant_type\":\"urn:ietf:params:oauth:grant-type:pre-authorized_code\"} }\n") :=
  ((C68_texts _).2.1 _).1 (by decide +kernel)

/-- The hypotheses of `C68_text_irrelevant` at the texts of a proof, with and without escapes. -/
example : CredentialRequest.fromJson (str! "{\"doctype\":\"d\",\"format\":\"mso_mdoc\"}")
      = CredentialRequest.fromJson (str! " {\"doctype\" : \"\\u0064\",\"\\u0066ormat\":\"mso\\u005fmdoc\" }") ∧
    CredentialRequest.fromJson (str! "{\"doctype\":\"d\",\"format\":\"mso_mdoc\"}")
      = some ⟨.msoMdoc (str! "d") none none, none⟩ := by
  have h : ∀ s, Json.parse s = some (.obj [(str! "doctype", .str (str! "d")), (str! "format", .str (str! "mso_mdoc"))]) →
      JsonText _ s := fun s h => ((C65_grammar s _).1 h).1
  exact ⟨(C68_text_irrelevant _ _ _ (h _ (by decide +kernel)) (h _ (by decide +kernel)) (by decide +kernel)).2.2.2.1,
    by decide +kernel⟩

end Oid4vci
