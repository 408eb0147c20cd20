import Verif.Lemmas.Insert
import Verif.Props.Options

/-!
C123: the values of members nobody asks for are passed over. They have to be JSON as far as brackets, quotes and
escapes go, nothing else about them matters; everything else has to be a JSON text of at most 127 levels.
-/

namespace Oid4vci

open Spec hiding value
open Serde

/-- C123. The application's own documents, read exactly as specified (for those of the protocol see C68). -/
theorem C123_texts (x : Ext) (s : Str) :
    (∀ o, EvaluateCredentialRequestOptions.fromJson x s = some o ↔
      SeenOf requestSettingsAsks (RequestSettingsDoc x) o s) ∧
    (∀ o, EvaluateAccessTokenRequestOptions.fromJson s = some o ↔ SeenOf tokenSettingsAsks TokenSettingsDoc o s) ∧
    (∀ c, CNonce.fromJson s = some c ↔ SeenOf nonceAsks NonceDoc c s) ∧
    (∀ m, AuthorizationServerMetadata.fromJson s = some m ↔ SeenOf serverAsks ServerDoc m s) ∧
    (∀ j, ProofJwt.fromJson x s = some j ↔ SeenOf jwtAsks (JwtDoc x) j s) :=
  ⟨seen_of (C69_requestSettings x) s, seen_of C69_tokenSettings s, seen_of C69_nonce s, seen_of C69_server s,
    seen_of (C69_jwt x) s⟩

/-! ### Everything read is grammatical -/

mutual
theorem grammar_value : ∀ {σ : Shape} {j : Json} {t : Str}, SeenValue σ j t → SkippedValue t
  | _, _, _, .leaf _ _ _ _ h => Json.skippable_value h
  | _, _, _, .emptyArray _ w hw => .emptyArray w hw
  | _, _, _, .array _ _ _ _ w s t _ hw hx ht => .array w s t hw (grammar_value hx) (grammar_elements ht)
  | _, _, _, .emptyObject _ w hw => .emptyObject w hw
  | _, _, _, .object _ _ _ _ w s t hw hm ht => .object w s t hw (grammar_member hm) (grammar_members ht)
theorem grammar_elements : ∀ {σ : Shape} {i : Nat} {xs : List Json} {t : Str}, SeenElements σ i xs t →
    SkippedElements t
  | _, _, _, _, .close _ _ w hw => .close w hw
  | _, _, _, _, .more _ _ _ _ _ w w' s t _ hw hw' hx ht =>
    .more w w' s t hw hw' (grammar_value hx) (grammar_elements ht)
theorem grammar_member : ∀ {σ : Shape} {k : Str} {v : Json} {t : Str}, SeenMember σ k v t → SkippedMember t
  | _, _, _, _, .read _ _ _ _ s w w' t _ hs hw hw' hv => .mk s w w' t (Json.skippable_string hs) hw hw' (grammar_value hv)
  | _, _, _, _, .skipped _ _ s w w' t _ hs hw hw' hv => .mk s w w' t (Json.skippable_string hs) hw hw' hv
theorem grammar_members : ∀ {σ : Shape} {kvs : List (Str × Json)} {t : Str}, SeenMembers σ kvs t → SkippedMembers t
  | _, _, _, .close _ w hw => .close w hw
  | _, _, _, .more _ _ _ _ w w' s t hw hw' hm ht => .more w w' s t hw hw' (grammar_member hm) (grammar_members ht)
end

theorem grammatical_of {α : Type} {σ : Shape} {de : Json → Option α} {s : Str} {a : α}
    (h : (Json.see σ s).bind de = some a) : Grammatical s := by
  obtain ⟨v, hv, -⟩ := Option.bind_eq_some_iff.1 h
  obtain ⟨⟨w, t, w', hw, ht, hw', e⟩, -⟩ := Json.see_iff.1 hv
  exact ⟨w, t, w', hw, grammar_value ht, hw', e⟩

/-- C123. Whatever is read as a document is a text of the JSON grammar. -/
theorem C123_grammatical (x : Ext) (s : Str)
    (h : (CredentialOffer.fromJson s).isSome ∨ (AccessTokenRequest.fromJson s).isSome ∨
      (AccessTokenSuccessResponse.fromJson s).isSome ∨ (CredentialRequest.fromJson s).isSome ∨
      (CredentialSuccessResponse.fromJson s).isSome ∨ (CredentialIssuerMetadata.fromJson s).isSome ∨
      (EvaluateCredentialRequestOptions.fromJson x s).isSome ∨ (EvaluateAccessTokenRequestOptions.fromJson s).isSome ∨
      (CNonce.fromJson s).isSome ∨ (AuthorizationServerMetadata.fromJson s).isSome ∨ (ProofJwt.fromJson x s).isSome) :
    Grammatical s := by
  simp only [Option.isSome_iff_exists] at h
  rcases h with ⟨_, h⟩ | ⟨_, h⟩ | ⟨_, h⟩ | ⟨_, h⟩ | ⟨_, h⟩ | ⟨_, h⟩ | ⟨_, h⟩ | ⟨_, h⟩ | ⟨_, h⟩ | ⟨_, h⟩ | ⟨_, h⟩ <;>
    exact grammatical_of h

/-! ### A further member -/

theorem read_front {α : Type} {fs : List (Str × Shape)} {de : Json → Option α} {k m rest w0 w w' : Str}
    (hk : k ∉ fs.map Prod.fst) (hde : ∀ v kvs, de (.obj ((k, v) :: kvs)) = de (.obj kvs)) (h : Further k m rest)
    (h0 : Ws w0) (hw : Ws w) (hw' : Ws w') :
    (Json.see (.struct fs) (w0 ++ '{' :: (w ++ m ++ (w' ++ ',' :: rest)))).bind de
      = (Json.see (.struct fs) (w0 ++ '{' :: rest)).bind de := by
  obtain ⟨⟨n, w1, w2, t, hn, h1, h2, ht, rfl⟩, w3, r, h3, rfl⟩ := h
  have hm : SeenMember (.struct fs) k .null (n ++ w1 ++ ':' :: (w2 ++ t)) :=
    .skipped _ _ _ _ _ _ (.struct _ _ fun p hp e => hk (e ▸ List.mem_map_of_mem hp)) hn h1 h2 ht
  refine Option.ext fun a => ?_
  simp only [Option.bind_eq_some_iff, Json.see_front h0 hw hw' hm]
  constructor
  · rintro ⟨_, ⟨kvs, rfl, -, -, hs⟩, ha⟩
    exact ⟨_, hs, (hde _ _).symm.trans ha⟩
  · rintro ⟨j, hs, ha⟩
    rcases (Json.seenText_object h0).1 (Json.see_iff.1 hs).1 with ⟨wa, wb, ha', -, -, e⟩ | ⟨k', v', kvs, _, _, _, _, -, -, -, -, rfl, -⟩
    · exact absurd (Json.ws_cancel h3 ha' (by decide) (by decide) e).1 (by decide)
    · exact ⟨_, ⟨_, rfl, by simp, by simp [depth], hs⟩, (hde _ _).trans ha⟩

/-- C123. A further member, whatever its value, changes nothing: neither what is read nor whether something is. -/
theorem C123_further (x : Ext) (k m rest w0 w w' : Str) (h : Further k m rest) (h0 : Ws w0) (hw : Ws w) (hw' : Ws w') :
    (k ∉ [str! "credential_issuer", str! "credentials", str! "grants"] →
      CredentialOffer.fromJson (w0 ++ '{' :: (w ++ m ++ (w' ++ ',' :: rest)))
        = CredentialOffer.fromJson (w0 ++ '{' :: rest)) ∧
    (k ≠ str! "grant_type" →
      AccessTokenRequest.fromJson (w0 ++ '{' :: (w ++ m ++ (w' ++ ',' :: rest)))
        = AccessTokenRequest.fromJson (w0 ++ '{' :: rest)) ∧
    (k ∉ [str! "access_token", str! "token_type", str! "expires_in", str! "scope", str! "c_nonce",
        str! "c_nonce_expires_in", str! "authorization_pending", str! "interval"] →
      AccessTokenSuccessResponse.fromJson (w0 ++ '{' :: (w ++ m ++ (w' ++ ',' :: rest)))
        = AccessTokenSuccessResponse.fromJson (w0 ++ '{' :: rest)) ∧
    (k ∉ [str! "format", str! "credential", str! "acceptance_token", str! "c_nonce", str! "c_nonce_expires_in"] →
      CredentialSuccessResponse.fromJson (w0 ++ '{' :: (w ++ m ++ (w' ++ ',' :: rest)))
        = CredentialSuccessResponse.fromJson (w0 ++ '{' :: rest)) ∧
    (k ∉ [str! "c_nonce", str! "client_id"] →
      EvaluateCredentialRequestOptions.fromJson x (w0 ++ '{' :: (w ++ m ++ (w' ++ ',' :: rest)))
        = EvaluateCredentialRequestOptions.fromJson x (w0 ++ '{' :: rest)) ∧
    (k ≠ str! "expected_user_pin" →
      EvaluateAccessTokenRequestOptions.fromJson (w0 ++ '{' :: (w ++ m ++ (w' ++ ',' :: rest)))
        = EvaluateAccessTokenRequestOptions.fromJson (w0 ++ '{' :: rest)) ∧
    (k ∉ [str! "c_nonce", str! "c_nonce_expires_in"] →
      CNonce.fromJson (w0 ++ '{' :: (w ++ m ++ (w' ++ ',' :: rest))) = CNonce.fromJson (w0 ++ '{' :: rest)) ∧
    AuthorizationServerMetadata.fromJson (w0 ++ '{' :: (w ++ m ++ (w' ++ ',' :: rest)))
      = AuthorizationServerMetadata.fromJson (w0 ++ '{' :: rest) ∧
    (k ∉ [str! "header", str! "body", str! "signature"] →
      ProofJwt.fromJson x (w0 ++ '{' :: (w ++ m ++ (w' ++ ',' :: rest)))
        = ProofJwt.fromJson x (w0 ++ '{' :: rest)) := by
  refine ⟨fun hk => ?_, fun hk => ?_, fun hk => ?_, fun hk => ?_, fun hk => ?_, fun hk => ?_, fun hk => ?_, ?_,
    fun hk => ?_⟩
  · exact read_front hk (fun v kvs => by unfold CredentialOffer.de; rw [struct_front hk]) h h0 hw hw'
  · have hk : k ∉ [str! "grant_type"] := by simpa using hk
    exact read_front hk (fun v kvs => by unfold AccessTokenRequest.de; rw [struct_front hk]) h h0 hw hw'
  · exact read_front hk (fun v kvs => by unfold AccessTokenSuccessResponse.de; rw [struct_front hk]) h h0 hw hw'
  · exact read_front hk (fun v kvs => by unfold CredentialSuccessResponse.de; rw [struct_front hk]) h h0 hw hw'
  · exact read_front hk (fun v kvs => by unfold EvaluateCredentialRequestOptions.de; rw [struct_front hk]) h h0 hw hw'
  · have hk : k ∉ [str! "expected_user_pin"] := by simpa using hk
    exact read_front hk (fun v kvs => by unfold EvaluateAccessTokenRequestOptions.de; rw [struct_front hk]) h h0 hw hw'
  · exact read_front hk (fun v kvs => by unfold CNonce.de; rw [struct_front hk]) h h0 hw hw'
  · exact read_front (by simp) (fun v kvs => by
      unfold AuthorizationServerMetadata.de; rw [struct_front (by simp)]) h h0 hw hw'
  · exact read_front hk (fun v kvs => by unfold ProofJwt.de; rw [struct_front hk]) h h0 hw hw'

/-! ### Members which are kept -/

/-- Where a member that is asked for ends. -/
theorem asked_value {fs : List (Str × Shape)} {k n w0 w w1 w2 t rest : Str} (hk : k ∉ fs.map Prod.fst)
    (h0 : Ws w0) (hw : Ws w) (hn : StringText k n) (h1 : Ws w1) (h2 : Ws w2) (ht : SkippedValue t) (hr : Json.Ends rest)
    {j : Json} (h : Json.see (.flat fs) (w0 ++ '{' :: (w ++ (n ++ w1 ++ ':' :: (w2 ++ t)) ++ rest)) = some j) :
    ∃ v, ValueText v t ∧ depth v ≤ 126 := by
  obtain ⟨hs, hd⟩ := Json.see_iff.1 h
  obtain ⟨u, hu, rfl⟩ := hn
  rcases (Json.seenText_object h0).1 hs with ⟨wa, wb, ha, -, -, e⟩ | ⟨k', v, kvs, wa, t', u', wb, ha, hb, hm, hms, rfl, e⟩
  · simp only [List.append_assoc, List.cons_append] at e
    exact absurd (Json.ws_cancel hw ha (by decide) (by decide) e).1 (by decide)
  · have he := Json.seenMembers_ends hms wb
    cases hm with
    | skipped _ _ _ _ _ _ hi => cases hi
    | read _ τ _ _ s wc wd t' hτ hs hc hd' hv =>
      obtain ⟨u2, hu2, rfl⟩ := hs
      simp only [List.append_assoc, List.cons_append, List.nil_append] at e
      have e1 := (Json.ws_cancel hw ha (by decide) (by decide) e).2
      have p1 := Json.parseStr_complete hu (w1 ++ ':' :: (w2 ++ (t ++ rest)))
      rw [e1, Json.parseStr_complete hu2] at p1
      simp only [Option.some.injEq, Prod.mk.injEq] at p1
      obtain ⟨rfl, e2⟩ := p1
      have e3 := (Json.ws_cancel h1 hc (by decide) (by decide) e2.symm).2
      have hany : τ = .any := by
        cases hτ with
        | flat _ _ _ hen =>
          obtain ⟨before, after, rfl, -⟩ := hen
          exact absurd (by simp) hk
        | rest => rfl
      subst hany
      have hv' := Json.text_value rfl hv
      have q1 := (Json.skip_complete_aux (t.length + t'.length)).1 w2 t rest h2 ht (by omega) hr
      have q2 := (Json.skip_complete_aux (t.length + t'.length)).1 wd t' (u' ++ wb) hd' (Json.skippable_value hv')
        (by omega) he
      rw [List.append_assoc, e3, ← List.append_assoc, q2] at q1
      cases q1
      obtain ⟨c, t1, rfl, hc1, -⟩ := Json.skippedValue_cons ht
      obtain ⟨c', t2, rfl, hc2, -⟩ := Json.valueText_cons hv'
      obtain ⟨rfl, e4⟩ := Json.ws_cancel h2 hd' hc1 hc2 e3
      obtain rfl := List.append_cancel_right e4
      simp only [depth, depthMembers, Json.maxDepth] at hd
      exact ⟨v, hv', by omega⟩

/-- C123. In credential requests and issuer metadata further members are kept, and read. -/
theorem C123_kept (k n w0 w w1 w2 t rest : Str) (h0 : Ws w0) (hw : Ws w) (hn : StringText k n) (h1 : Ws w1)
    (h2 : Ws w2) (ht : SkippedValue t) (hr : ∃ w' c r, Ws w' ∧ (c = ',' ∨ c = '}') ∧ rest = w' ++ c :: r)
    (h : (k ≠ str! "proof" ∧
        (CredentialRequest.fromJson (w0 ++ '{' :: (w ++ (n ++ w1 ++ ':' :: (w2 ++ t)) ++ rest))).isSome) ∨
      (k ∉ metadataFields ∧
        (CredentialIssuerMetadata.fromJson (w0 ++ '{' :: (w ++ (n ++ w1 ++ ':' :: (w2 ++ t)) ++ rest))).isSome)) :
    ∃ v, ValueText v t ∧ depth v ≤ 126 := by
  have hr : Json.Ends rest := by
    obtain ⟨w', c, r, hw', hc, rfl⟩ := hr
    exact Json.ws_ends hw' (by rcases hc with rfl | rfl <;> decide)
  simp only [Option.isSome_iff_exists] at h
  rcases h with ⟨hk, a, h⟩ | ⟨hk, a, h⟩
  · obtain ⟨j, hj, -⟩ := Option.bind_eq_some_iff.1 h
    exact asked_value (by simpa using hk) h0 hw hn h1 h2 ht hr hj
  · obtain ⟨j, hj, -⟩ := Option.bind_eq_some_iff.1 h
    exact asked_value hk h0 hw hn h1 h2 ht hr hj

/-! ### Cases -/

namespace Ex
/-- Arrays in arrays, more than serde_json reads. -/
def nested (n : Nat) : Str := List.replicate n '[' ++ List.replicate n ']'
/-- A member with a value no reader of values accepts: a number beyond the doubles, a lone surrogate, deep nesting. -/
def oddMember : Str := str! "\"x\" : [1e999, \"\\ud800\", " ++ nested 130 ++ str! "]"
/-- The rest of an offer. -/
def restOfOffer : Str := str! "\"credential_issuer\":\"i\",\"credentials\":[\"a\"],\"grants\":{}}"
end Ex

/-- A value that the model skips is one that can be skipped. -/
theorem skipped_of {f : Nat} {c : Char} {s : Str} (hc : Json.isWs c = false) (h : Json.skipValue f (c :: s) = some []) :
    SkippedValue (c :: s) := by
  obtain ⟨w, t, hw, ht, e⟩ := (Json.skip_sound_aux f).1 _ _ h
  cases w with
  | nil => rw [e]; simpa using ht
  | cons c' w =>
    cases e
    exact absurd (hw c (by simp)) (by intro hm; simp [Json.isWs] at hc hm; tauto)

/-- The hypotheses of `C123_further`. -/
theorem Ex.further : Further (str! "x") Ex.oddMember Ex.restOfOffer := by
  have w1 : Ws [' '] := by simp [Ws]
  refine ⟨⟨str! "\"x\"", [' '], [' '], str! "[1e999, \"\\ud800\", " ++ nested 130 ++ str! "]",
    ⟨str! "x", .unescaped _ _ _ (by decide) (by decide) (by decide) .nil, rfl⟩, w1, w1, ?_, rfl⟩, [], _, by simp [Ws], rfl⟩
  exact skipped_of (f := 1000) (by decide) (by decide +kernel)

/-- An offer with that member at the front is read as the offer without it, although no JSON value has this text. -/
example : CredentialOffer.fromJson ('{' :: (Ex.oddMember ++ ',' :: Ex.restOfOffer)) =
      some ⟨str! "i", [.credentialId (str! "a")], ⟨none, none⟩⟩ ∧
    CredentialOffer.fromJson ('{' :: (Ex.oddMember ++ ',' :: Ex.restOfOffer))
      = CredentialOffer.fromJson ('{' :: Ex.restOfOffer) ∧
    Json.parse ('{' :: (Ex.oddMember ++ ',' :: Ex.restOfOffer)) = none :=
  ⟨by decide +kernel, (C123_further Ex.ext _ _ _ [] [] [] Ex.further (by simp [Ws]) (by simp [Ws]) (by simp [Ws])).1
    (by decide), by decide +kernel⟩

/-- Inside of the grants, too, and inside of a proof; but not next to the proof, and not in place of a credential. -/
example : CredentialOffer.fromJson (str! "{\"credential_issuer\":\"i\",\"credentials\":[],\"grants\":{" ++ Ex.oddMember ++ str! "}}")
      = some ⟨str! "i", [], ⟨none, none⟩⟩ ∧
    CredentialRequest.fromJson (str! "{\"format\":\"mso_mdoc\",\"doctype\":\"d\",\"proof\":{\"jwt\":\"j\"," ++ Ex.oddMember ++ str! "}}")
      = some ⟨.msoMdoc (str! "d") none none, some ⟨str! "JWT", str! "j"⟩⟩ ∧
    CredentialRequest.fromJson (str! "{\"format\":\"mso_mdoc\",\"doctype\":\"d\"," ++ Ex.oddMember ++ str! "}") = none ∧
    CredentialRequest.fromJson (str! "{\"format\":\"mso_mdoc\",\"doctype\":\"d\",\"x\":" ++ Ex.nested 126 ++ str! "}")
      = some ⟨.msoMdoc (str! "d") none none, none⟩ ∧
    CredentialRequest.fromJson (str! "{\"format\":\"mso_mdoc\",\"doctype\":\"d\",\"x\":" ++ Ex.nested 127 ++ str! "}") = none ∧
    CredentialOffer.fromJson (str! "{\"credential_issuer\":\"i\",\"credentials\":[{\"format\":\"mso_mdoc\",\"doctype\":\"d\"," ++ Ex.oddMember ++ str! "}],\"grants\":{}}")
      = none := by decide +kernel

/-- A comma before the closing brace is not passed over. -/
example : CredentialOffer.fromJson (str! "{\"credential_issuer\":\"i\",\"credentials\":[],\"grants\":{},\"x\":[1,]}") = none ∧
    CredentialOffer.fromJson (str! "{\"credential_issuer\":\"i\",\"credentials\":[],\"grants\":{},\"x\":1,}") = none := by
  decide +kernel

end Oid4vci
