import Verif.Props.Documented
import Verif.Props.JwtText
import Verif.Props.Offer
import Verif.Props.Token

/-! For violated promises: exactly when they are kept. -/

namespace Oid4vci

open Spec AccessToken CredentialIssuer

/-- C05, exactly: a PIN passes if and only if it has at most nine digits, one more than promised. -/
theorem C05_iff_partial (code : Str) (pin : Option UInt64) :
    (GrantType.preAuthorizedCodeFlow code pin).validate = .ok () ↔
      ∀ n, pin = some n → AtMostDigits 9 n.toNat :=
  validate_ok_iff code pin

example : AtMostDigits 9 (999999999 : UInt64).toNat := by rw [atMostDigits_iff]; decide

/-- C08, exactly: with a wrong code, two PINs give the same result if and only if the offer has no
pre-authorized grant, or both PINs are the expected one, or neither is. -/
theorem C08_iff_partial (code : Str) (pin pin' : UInt64) (o : CredentialOffer)
    (options : Option EvaluateAccessTokenRequestOptions)
    (hc : ∀ p, o.grants.preAuthorizedCodeFlow = some p → p.code ≠ code)
    (hl : AtMostDigits 9 pin.toNat) (hl' : AtMostDigits 9 pin'.toNat) :
    evaluateAccessTokenRequest ⟨.preAuthorizedCodeFlow code (some pin)⟩ (some o) options
      = evaluateAccessTokenRequest ⟨.preAuthorizedCodeFlow code (some pin')⟩ (some o) options ↔
    o.grants.preAuthorizedCodeFlow = none ∨
      (expectedPin options = some pin ↔ expectedPin options = some pin') := by
  rw [evaluate_pre_eq _ _ _ _ ((validate_ok_iff _ _).2 (by rintro n ⟨⟩; exact hl)),
    evaluate_pre_eq _ _ _ _ ((validate_ok_iff _ _).2 (by rintro n ⟨⟩; exact hl'))]
  obtain ⟨ci, cs, ⟨a, p⟩⟩ := o
  rcases p with _ | p
  · rcases a with _ | a <;> simp [grantTable, ofTable]
  · have hne : p.code ≠ code := hc p rfl
    cases h : expectedPin options with
    | none => rcases a with _ | a <;> simp [grantTable, preTable, firstRow, ofTable]
    | some e =>
      have h1 : e = pin ↔ pin = e := eq_comm
      have h2 : e = pin' ↔ pin' = e := eq_comm
      by_cases hp : pin = e <;> by_cases hp' : pin' = e <;> rcases a with _ | a <;>
        simp [grantTable, preTable, firstRow, ofTable, hp, hp', hne, h1, h2]

example : evaluateAccessTokenRequest ⟨.preAuthorizedCodeFlow (str! "x") (some 1)⟩ (some Ex.bothOffer)
      (some ⟨some 1⟩)
    ≠ evaluateAccessTokenRequest ⟨.preAuthorizedCodeFlow (str! "x") (some 2)⟩ (some Ex.bothOffer)
      (some ⟨some 1⟩) := by decide +kernel

/-- C13, exactly: a created offer offers only supported credentials if and only if every inline
credential passed to `create_offer` is supported. -/
theorem C13_iff_partial (m : CredentialIssuerMetadata) (cs : CredentialOrIds)
    (endpoint : Option Str) (a : Option AuthorizedCodeFlow) (p : Option PreAuthorizedCodeFlow)
    (offer : CredentialOffer) (url : Str) (h : createOffer m cs endpoint a p = .ok (offer, url)) :
    (∀ c ∈ offer.credentials, Supported m c) ↔
      ∀ f, .credential f ∈ cs → ∃ e ∈ m.credentialsSupported, e.format = f := by
  rw [((C12_create_offer _ _ _ _ _).2.1 _ _ h).2.1]
  constructor
  · exact fun hs f hf => hs _ hf
  · intro hs c hc
    cases c with
    | credential f => exact hs f hc
    | credentialId id => exact ((C12_create_offer m cs endpoint a p).1.1 ⟨_, h⟩).2.2 _ hc

/-- An inline credential which the issuer does not support. -/
example : ∃ offer url, createOffer Ex.metadata [.credential (.msoMdoc (str! "other") none none)] none none none
    = .ok (offer, url) ∧ ¬ ∀ c ∈ offer.credentials, Supported Ex.metadata c := by
  obtain ⟨offer, url, h⟩ : ∃ offer url, createOffer Ex.metadata [.credential (.msoMdoc (str! "other") none none)]
      none none none = .ok (offer, url) := ⟨_, _, rfl⟩
  refine ⟨offer, url, h, fun hs => ?_⟩
  have := (C13_iff_partial _ _ _ _ _ _ _ h).1 hs _ (List.mem_singleton.2 rfl)
  revert this
  decide +kernel

theorem cut_append_mem {c : Char} {s t : Str} (h : c ∈ s) :
    ∃ u, (cut c s).2 = some u ∧ cut c (s ++ t) = ((cut c s).1, some (u ++ t)) := by
  obtain ⟨a, b, rfl, ha⟩ := exists_cut h
  refine ⟨b, by rw [cut_append ha], ?_⟩
  rw [cut_append ha, List.append_assoc, List.cons_append, cut_append ha]

theorem cut_mem {q : Str} (h : '=' ∉ q) (v : Str) : '?' ∈ (cut '=' (q ++ '?' :: v)).1 := by
  induction q with
  | nil => simp [cut]
  | cons a q ih =>
    simp only [List.mem_cons, not_or] at h
    rw [List.cons_append, cut, if_neg (Ne.symm h.1)]
    exact List.mem_cons_of_mem _ (ih h.2)

/-- Appending `?credential_offer=…` to a query adds no parameter of that name. -/
theorem params_append (q v : Str) (hv : '&' ∉ v) (w : Str)
    (h : (str! "credential_offer", w) ∈ params (q ++ '?' :: v)) :
    ∃ w', (str! "credential_offer", w') ∈ params q := by
  induction hn : q.length using Nat.strongRecOn generalizing q with
  | ind n ih =>
    subst hn
    by_cases hq : '&' ∈ q
    · obtain ⟨u, hu, hc⟩ := cut_append_mem (t := '?' :: v) hq
      have hlt : u.length < q.length := by
        obtain ⟨a, b, rfl, ha⟩ := exists_cut hq
        rw [cut_append ha] at hu
        cases hu
        simp; omega
      rw [params, hc] at h
      rw [params, show cut '&' q = ((cut '&' q).1, some u) from Prod.ext rfl hu]
      simp only at h ⊢
      rw [if_pos (by simpa using hlt)] at h
      rw [if_pos hlt]
      rcases List.mem_cons.1 h with h | h
      · exact ⟨_, List.mem_cons.2 (.inl h)⟩
      · obtain ⟨w', hw'⟩ := ih _ hlt u h rfl
        exact ⟨w', List.mem_cons_of_mem _ hw'⟩
    · have hqv : '&' ∉ q ++ '?' :: v := by
        simp only [List.mem_append, List.mem_cons, not_or]
        exact ⟨hq, by decide, hv⟩
      rw [params, cut_not_mem hqv] at h
      rw [params, cut_not_mem hq]
      simp only [List.mem_singleton, Prod.mk.injEq] at h ⊢
      by_cases he : '=' ∈ q
      · obtain ⟨u, hu, hc⟩ := cut_append_mem (t := '?' :: v) he
        rw [hc] at h
        exact ⟨_, h.1, rfl⟩
      · have hm := cut_mem he v
        rw [← h.1] at hm
        exact absurd hm (by decide)

/-- C16, exactly: unless the endpoint itself has a parameter of that name, the offer is found under
`credential_offer` if and only if there is an endpoint, and it has neither query nor fragment. -/
theorem C16_iff_partial (m : CredentialIssuerMetadata) (cs : CredentialOrIds)
    (endpoint : Option Str) (a : Option AuthorizedCodeFlow) (p : Option PreAuthorizedCodeFlow)
    (offer : CredentialOffer) (url : Str)
    (hown : ∀ e ∈ endpoint, ∀ w, (str! "credential_offer", w) ∉ urlParams e)
    (h : createOffer m cs endpoint a p = .ok (offer, url)) :
    (∃ v, (str! "credential_offer", v) ∈ urlParams url ∧ urlDecode v = some offer.ser.print) ↔
      ∃ e, endpoint = some e ∧ '?' ∉ e ∧ '#' ∉ e := by
  constructor
  · rintro ⟨v, hv, -⟩
    cases endpoint with
    | none => rw [C16_deep_link_has_no_query _ _ _ _ _ _ h] at hv; cases hv
    | some e =>
      refine ⟨e, rfl, ?_⟩
      have hu := createOffer_url _ _ _ _ _ _ _ h
      simp only [offerUrlPrefix, List.append_assoc] at hu
      have hp1 : '#' ∉ str! "credential_offer=" ++ urlencode offer.ser.print :=
        not_mem_param '#' (by decide) (by decide) (by decide) _
      have hp2 : '&' ∉ str! "credential_offer=" ++ urlencode offer.ser.print :=
        not_mem_param '&' (by decide) (by decide) (by decide) _
      have hf : '#' ∉ e := by
        intro hf
        obtain ⟨u, -, hc⟩ := cut_append_mem (t := str! "?" ++ (str! "credential_offer=" ++ urlencode offer.ser.print)) hf
        apply hown e rfl v
        rw [urlParams, query, hu, hc] at hv
        exact hv
      refine ⟨fun hq => ?_, hf⟩
      have hfu : '#' ∉ url := by
        rw [hu]
        simp only [List.mem_append, not_or] at hp1 ⊢
        exact ⟨hf, by decide, hp1⟩
      obtain ⟨u, hu', hc⟩ := cut_append_mem (t := str! "?" ++ (str! "credential_offer=" ++ urlencode offer.ser.print)) hq
      rw [urlParams, query, cut_not_mem hfu, hu, hc] at hv
      obtain ⟨w, hw⟩ := params_append u _ hp2 v hv
      apply hown e rfl w
      rw [urlParams, query, cut_not_mem hf]
      simp only
      rw [hu']
      exact hw
  · rintro ⟨e, rfl, hq, hf⟩
    obtain ⟨v, h1, h2⟩ := C16_endpoint_partial m cs e a p offer url hq hf h
    exact ⟨v, by rw [h1]; simp, h2⟩

example : ∀ w, (str! "credential_offer", w) ∉ urlParams (str! "https://w/?a=b#c") := by
  intro w
  rw [urlParams, show query _ = some (str! "a=b") by decide +kernel]
  simp only
  rw [params, show cut '&' _ = (str! "a=b", none) by decide +kernel]
  simp [cut]

/-- C18, exactly: a string is read like the string of its first three segments. -/
theorem C18_iff_partial (x : Ext) (ps : List Str) (h : ∀ p ∈ ps, NoDot p) (hne : ps ≠ []) :
    ProofJwt.fromStr x (dotted ps) = ProofJwt.fromStr x (dotted (ps.take 3)) := by
  have e := splitOn_dotted ps hne h
  have e' := splitOn_dotted (ps.take 3) (by simpa using hne)
    (fun p hp => h p (List.mem_of_mem_take hp))
  unfold ProofJwt.fromStr
  rw [e, e']
  rcases ps with _ | ⟨a, _ | ⟨b, _ | ⟨c, _ | ⟨d, ps⟩⟩⟩⟩ <;> rfl

/-- Five segments. -/
example : ProofJwt.fromStr Ex.ext (str! "a.b.c.d.e") = ProofJwt.fromStr Ex.ext (str! "a.b.c") :=
  C18_iff_partial Ex.ext [str! "a", str! "b", str! "c", str! "d", str! "e"] (by simp [NoDot]) (by simp)

/-- C36, exactly: a response carries exactly one of the two if and only if the caller supplies one. -/
theorem C36_iff_partial (x : Ext) (now t : Time) (r : CredentialRequest)
    (c : Option CredentialOrAcceptanceToken) (nonce : Option CNonce)
    (resp : CredentialSuccessResponse)
    (h : createCredentialSuccessResponse x now r c nonce = .ok (resp, t)) :
    (resp.credential = none ↔ resp.acceptanceToken ≠ none) ↔ c ≠ none := by
  refine ⟨?_, (C36_supplied_partial x now t r c nonce resp h).1⟩
  rintro hi rfl
  have hv := (success_eq_ok.1 h).1
  obtain ⟨resp', h', h1, h2⟩ := C36_neither x now r nonce hv
  rw [h] at h'
  cases h'
  exact hi.1 h1 h2

/-- Neither is supplied. -/
example : ∃ resp t, createCredentialSuccessResponse Ex.ext 0 ⟨Ex.mdoc, none⟩ none none = .ok (resp, t) ∧
    ¬ (resp.credential = none ↔ resp.acceptanceToken ≠ none) :=
  ⟨_, _, rfl, fun h => (C36_iff_partial Ex.ext 0 0 ⟨Ex.mdoc, none⟩ none none _ rfl).1 h rfl⟩

/-- C38, exactly: a token response has a lifetime without a nonce if and only if the caller asks for
it. -/
theorem C38_iff_partial (now : Time) (token : Str) (type : AccessTokenType) (exp : Option UInt32)
    (scope nonce : Option Str) (nexp : Option UInt32) (pending : Option Bool)
    (interval : Option UInt32) (resp : AccessTokenSuccessResponse) (t : Time)
    (h : createAccessTokenSuccessResponse now token type exp scope nonce nexp pending
      interval = .ok (resp, t)) :
    (resp.cNonceExpiresIn ≠ none → resp.cNonce ≠ none) ↔ (nexp ≠ none → nonce ≠ none) := by
  obtain ⟨-, -, -, -, h1, h2, -⟩ := C38_carries _ _ _ _ _ _ _ _ _ _ _ h
  rw [h1, h2]

/-- A lifetime without a nonce. -/
example : ∃ resp t, createAccessTokenSuccessResponse 0 (str! "t") .bearer none none none (some 60) none none
    = .ok (resp, t) ∧ ¬ (resp.cNonceExpiresIn ≠ none → resp.cNonce ≠ none) :=
  ⟨_, _, rfl, fun h => (C38_iff_partial 0 (str! "t") .bearer none none none (some 60) none none _ 0 rfl).1 h
    (by simp) rfl⟩

/-- C52, exactly: in a history, the accepted requests are those that C01 describes, however often
they occur. -/
theorem C52_iff_partial (offer : CredentialOffer)
    (options : Option EvaluateAccessTokenRequestOptions) (rs : List AccessTokenRequest) (i : Nat)
    (r : AccessTokenRequest) :
    (tokenHistory offer options rs)[i]? = some (r, (.ok () : AccessTokenResult Unit)) ↔
      rs[i]? = some r ∧ TokenAccepted 9 r (some offer) options := by
  rw [← C01_accept_iff]
  simp only [tokenHistory, List.getElem?_map, Option.map_eq_some_iff, Prod.mk.injEq]
  constructor
  · rintro ⟨r', h, rfl, h'⟩; exact ⟨h, h'⟩
  · rintro ⟨h, h'⟩; exact ⟨r, h, rfl, h'⟩

/-- The first member with a property is determined by the list. -/
theorem first_eq {α : Type} {P : α → Prop} : ∀ {b b' : List α} {v v' : α} {a a' : List α},
    b ++ v :: a = b' ++ v' :: a' → (∀ q ∈ b, ¬ P q) → P v → (∀ q ∈ b', ¬ P q) → P v' → v = v'
  | [], [], _, _, _, _, e, _, _, _, _ => (List.cons.inj e).1
  | [], _ :: _, _, _, _, _, e, _, h, h', _ => absurd ((List.cons.inj e).1 ▸ h) (h' _ (by simp))
  | _ :: _, [], _, _, _, _, e, h, _, _, h' =>
    absurd h' ((List.cons.inj e).1 ▸ h _ (by simp))
  | _ :: _, _ :: _, _, _, _, _, e, h, hv, h', hv' =>
    first_eq (List.cons.inj e).2 (fun q hq => h q (List.mem_cons_of_mem _ hq)) hv
      (fun q hq => h' q (List.mem_cons_of_mem _ hq)) hv'

/-- C85, exactly: a header that is read has a key if and only if its first key member in document
order is a string. -/
theorem C85_iff_partial (kvs : List (Str × Json)) (h : ProofJwtHeader)
    (hd : ProofJwtHeader.de (.obj kvs) = some h) :
    h.additionalHeader ≠ none ↔ ∃ before k s after, kvs = before ++ (k, .str s) :: after ∧
      (∀ p ∈ before, p.1 ∉ [str! "kid", str! "jwk", str! "x5c"]) ∧
      k ∈ [str! "kid", str! "jwk", str! "x5c"] := by
  obtain ⟨_, _, ⟨⟩, -, -, -, hk⟩ := (C63_header _ _).1 hd
  rcases hk with ⟨hn, hk⟩ | ⟨b, k, v, a, rfl, hb, hk, hv⟩
  · refine iff_of_false (not_not.2 hn) ?_
    rintro ⟨b, k, s, a, rfl, -, hk'⟩
    exact hk (k, .str s) (by simp) hk'
  · cases ha : h.additionalHeader with
    | none =>
      rw [ha] at hv
      refine iff_of_false (by simp) ?_
      rintro ⟨b', k', s, a', e, hb', hk'⟩
      have := first_eq (P := fun q : Str × Json => q.1 ∈ [str! "kid", str! "jwk", str! "x5c"]) e hb hk hb' hk'
      exact hv s (Prod.ext_iff.1 this).2
    | some key =>
      rw [ha] at hv
      obtain ⟨s, rfl, -⟩ := hv
      exact iff_of_true (by simp) ⟨b, k, s, a, rfl, hb, hk⟩

/-- A `kid` after other members. -/
example : ∃ h, ProofJwtHeader.de (.obj [(str! "typ", .str proofTyp), (str! "alg", .str (str! "ES256")),
    (str! "kid", .str (str! "did:a#k"))]) = some h ∧ h.additionalHeader ≠ none :=
  ⟨⟨proofTyp, .ES256, some (.keyId (str! "did:a#k"))⟩, by decide +kernel,
    (C85_iff_partial [(str! "typ", .str proofTyp), (str! "alg", .str (str! "ES256")),
      (str! "kid", .str (str! "did:a#k"))] _ (by decide +kernel)).2
      ⟨[_, _], str! "kid", _, [], rfl, by simp, by simp⟩⟩

/-- C87, exactly: nonce and lifetime appear together if and only if the caller supplies no nonce or
one with a lifetime. -/
theorem C87_iff_partial (x : Ext) (now t : Time) (r : CredentialRequest)
    (c : Option CredentialOrAcceptanceToken) (nonce : Option CNonce)
    (resp : CredentialSuccessResponse)
    (h : createCredentialSuccessResponse x now r c nonce = .ok (resp, t)) :
    (resp.cNonce ≠ none ↔ resp.cNonceExpiresIn ≠ none) ↔
      ∀ n, nonce = some n → n.cNonceExpiresIn ≠ none := by
  obtain ⟨-, h1, h2⟩ := C38_credential_partial x now t r c nonce resp h
  cases nonce with
  | none => simp [h2 rfl]
  | some n => simp [h1 n rfl]

/-- A nonce without a lifetime. -/
example : ∃ resp t, createCredentialSuccessResponse Ex.ext 0 ⟨Ex.mdoc, none⟩ none (some ⟨str! "n", none⟩)
    = .ok (resp, t) ∧ ¬ (resp.cNonce ≠ none ↔ resp.cNonceExpiresIn ≠ none) :=
  ⟨_, _, rfl, fun h => (C87_iff_partial Ex.ext 0 0 ⟨Ex.mdoc, none⟩ none (some ⟨str! "n", none⟩) _ rfl).1 h _ rfl rfl⟩

/-- Every header has a key or none. -/
theorem keyDoc_exists (kvs : List (Str × Json)) : ∃ key, KeyDoc kvs key := by
  by_cases h : ∃ p ∈ kvs, p.1 ∈ keyMembers
  · obtain ⟨b, ⟨k, v⟩, a, rfl, hk, hb⟩ : ∃ b p a, kvs = b ++ p :: a ∧ p.1 ∈ keyMembers ∧ ∀ q ∈ b, q.1 ∉ keyMembers := by
      induction kvs with
      | nil => simp at h
      | cons q l ih =>
        by_cases hq : q.1 ∈ keyMembers
        · exact ⟨[], q, l, rfl, hq, by simp⟩
        · obtain ⟨p, hp, hk⟩ := h
          rcases List.mem_cons.1 hp with rfl | hp
          · exact absurd hk hq
          · obtain ⟨b, p, a, rfl, h1, h2⟩ := ih ⟨p, hp, hk⟩
            exact ⟨q :: b, p, a, rfl, h1, by simpa [hq] using h2⟩
    by_cases hs : ∃ s, v = .str s
    · obtain ⟨s, rfl⟩ := hs
      have : ∃ a, (k, a) ∈ keyOf s := by
        simp only [keyMembers, List.mem_cons, List.not_mem_nil, or_false] at hk
        rcases hk with rfl | rfl | rfl
        · exact ⟨.keyId s, by simp [keyOf]⟩
        · exact ⟨.jwk s, by simp [keyOf]⟩
        · exact ⟨.x5c s, by simp [keyOf]⟩
      obtain ⟨key, hkey⟩ := this
      exact ⟨some key, .inr ⟨b, k, _, a, rfl, hb, hk, s, rfl, hkey⟩⟩
    · exact ⟨none, .inr ⟨b, k, v, a, rfl, hb, hk, fun s e => hs ⟨s, e⟩⟩⟩
  · exact ⟨none, .inl ⟨rfl, fun p hp hk => h ⟨p, hp, hk⟩⟩⟩

/-- C53, exactly: whether a header is read has nothing to do with its key members, however many they are: it is read
if and only if it is read without all of them. -/
theorem C53_iff_partial (kvs : List (Str × Json)) :
    (∃ h, ProofJwtHeader.de (.obj kvs) = some h) ↔
      ∃ h, ProofJwtHeader.de (.obj (kvs.filter fun p => decide (p.1 ∉ [str! "kid", str! "jwk", str! "x5c"]))) = some h := by
  have key : ∀ {k : Str} {v : Json}, k ∉ [str! "kid", str! "jwk", str! "x5c"] →
      (Sole (kvs.filter fun p => decide (p.1 ∉ [str! "kid", str! "jwk", str! "x5c"])) k v ↔ Sole kvs k v) := by
    intro k v hk
    have e : memberCount [k] (kvs.filter fun p => decide (p.1 ∉ [str! "kid", str! "jwk", str! "x5c"]))
        = memberCount [k] kvs := by
      unfold memberCount
      rw [List.countP_filter]
      refine List.countP_congr fun p _ => ?_
      by_cases h : p.1 = k
      · subst h; simpa using hk
      · simp [h]
    simp only [Sole, e, List.mem_filter, hk, not_false_eq_true, decide_true, and_true]
  simp only [C63_header]
  constructor
  · rintro ⟨h, _, alg, ⟨⟩, h1, h2, h3, -⟩
    obtain ⟨a, ha⟩ := keyDoc_exists (kvs.filter fun p => decide (p.1 ∉ [str! "kid", str! "jwk", str! "x5c"]))
    exact ⟨⟨h.typ, h.alg, a⟩, _, alg, rfl, (key (by decide)).2 h1, (key (by decide)).2 h2, h3, ha⟩
  · rintro ⟨h, _, alg, ⟨⟩, h1, h2, h3, -⟩
    obtain ⟨a, ha⟩ := keyDoc_exists kvs
    exact ⟨⟨h.typ, h.alg, a⟩, kvs, alg, rfl, (key (by decide)).1 h1, (key (by decide)).1 h2, h3, ha⟩

/-- A header with all three, none of them a string. -/
example : ∃ h, ProofJwtHeader.de (.obj [(str! "jwk", .null), (str! "typ", .str proofTyp), (str! "kid", .num 1),
    (str! "alg", .str (str! "ES256")), (str! "x5c", .arr [])]) = some h :=
  (C53_iff_partial _).2 ⟨⟨proofTyp, .ES256, none⟩, by decide +kernel⟩

/-- C76, exactly: what is read as a PIN are the JSON integers from 0 to `2^64 - 1`, each as itself, and `null` as no
PIN; in particular no string, fraction or negative number. -/
theorem C76_iff_partial (code : Str) (pin : Json) (g : GrantType) :
    GrantType.de (pinGrant code pin) = some g ↔
      (pin = .null ∧ g = .preAuthorizedCodeFlow code none) ∨
      ∃ n : UInt64, pin = .num n.toNat ∧ g = .preAuthorizedCodeFlow code (some n) := by
  rw [pinGrant_iff]
  constructor
  · rintro ⟨p, rfl, h⟩
    have h := (opt_iff u64_iff rfl).1 h
    cases p with
    | none =>
      rcases h with h | h
      · cases h
      · cases h; exact .inl ⟨rfl, rfl⟩
    | some n =>
      obtain ⟨v, hv, hn⟩ := h
      cases hv
      exact .inr ⟨n, hn, rfl⟩
  · rintro (⟨rfl, rfl⟩ | ⟨n, rfl, rfl⟩)
    · exact ⟨none, rfl, rfl⟩
    · exact ⟨some n, rfl, (opt_iff u64_iff rfl).2 ⟨_, rfl, rfl⟩⟩

/-- The largest PIN; one more is refused. -/
example : GrantType.de (pinGrant (str! "c") (.num 18446744073709551615))
      = some (.preAuthorizedCodeFlow (str! "c") (some 18446744073709551615)) ∧
    GrantType.de (pinGrant (str! "c") (.num 18446744073709551616)) = none := by decide +kernel

end Oid4vci
