import Verif.Model.Did
import Verif.Spec.Did
import Verif.Props.Flow
import Verif.Props.Reject

/-! C111, C112, C113: the DID of a key id. -/

namespace Oid4vci

open Spec CredentialIssuer

/-! ### Splitting -/

namespace Did

theorem splitAt_spec (c : Char) (s : Str) : c ∉ (splitAt c s).1 ∧ s = (splitAt c s).1 ++ showPart c (splitAt c s).2 := by
  induction s with
  | nil => exact ⟨by simp [splitAt], rfl⟩
  | cons d s ih =>
    rw [splitAt]
    split
    · rename_i h; subst h; exact ⟨by simp, rfl⟩
    · rename_i h
      refine ⟨?_, ?_⟩
      · simp only [List.mem_cons, not_or]
        exact ⟨fun e => h e.symm, ih.1⟩
      · simp only [List.cons_append, List.cons.injEq, true_and]
        exact ih.2

theorem splitAt_of (c : Char) (a : Str) (b : Option Str) (h : c ∉ a) : splitAt c (a ++ showPart c b) = (a, b) := by
  induction a with
  | nil =>
    cases b with
    | none => rfl
    | some b => simp [showPart, splitAt]
  | cons d a ih =>
    simp only [List.mem_cons, not_or] at h
    rw [List.cons_append, splitAt, if_neg (fun e => h.1 e.symm), ih h.2]

theorem splitPath_spec (s : Str) : '/' ∉ (splitPath s).1 ∧ s = (splitPath s).1 ++ (splitPath s).2 ∧
    ((splitPath s).2 = [] ∨ ∃ r, (splitPath s).2 = '/' :: r) := by
  induction s with
  | nil => exact ⟨by simp [splitPath], rfl, .inl rfl⟩
  | cons d s ih =>
    rw [splitPath]
    split
    · rename_i h; subst h; exact ⟨by simp, rfl, .inr ⟨s, rfl⟩⟩
    · rename_i h
      refine ⟨?_, ?_, ih.2.2⟩
      · simp only [List.mem_cons, not_or]
        exact ⟨fun e => h e.symm, ih.1⟩
      · simp only [List.cons_append, List.cons.injEq, true_and]
        exact ih.2.1

theorem splitPath_of (a b : Str) (h : '/' ∉ a) (hb : b = [] ∨ ∃ r, b = '/' :: r) : splitPath (a ++ b) = (a, b) := by
  induction a with
  | nil =>
    rcases hb with rfl | ⟨r, rfl⟩
    · rfl
    · simp [splitPath]
  | cons d a ih =>
    simp only [List.mem_cons, not_or] at h
    rw [List.cons_append, splitPath, if_neg (fun e => h.1 e.symm), ih h.2]

end Did

/-- The components of a DID URL are delimited: no delimiter stands where it would end a component early. -/
structure Spec.Delimited (u : DidUrl) : Prop where
  scheme : str! "did:" <+: u.did
  did : ∀ c ∈ u.did, c ∉ ['/', '?', '#']
  path : u.path = [] ∨ ∃ r, u.path = '/' :: r
  noQuery : ∀ c ∈ u.path, c ∉ ['?', '#']
  noFragment : ∀ q ∈ u.query, '#' ∉ q

theorem did_prefix_append {a b : Str} (h : str! "did:" <+: a ++ b) (hb : ∀ c ∈ b.head?, c ∉ (str! "did:")) :
    str! "did:" <+: a := by
  rcases List.prefix_or_prefix_of_prefix h (List.prefix_append a b) with h' | ⟨r, hr⟩
  · exact h'
  · rw [← hr, List.prefix_append_right_inj] at h
    replace hr := hr.symm
    cases b with
    | nil =>
      have := List.prefix_nil.1 h
      subst this
      simp only [List.append_nil] at hr
      rw [hr]
    | cons c b =>
      cases r with
      | nil => simp only [List.append_nil] at hr; rw [hr]
      | cons d r =>
        have : d = c := by
          obtain ⟨t, ht⟩ := h
          simp only [List.cons_append, List.cons.injEq] at ht
          exact ht.1
        subst this
        exact absurd (hr ▸ by simp : d ∈ (str! "did:")) (hb d rfl)

/-- Which texts are read as DID URLs, and their components. -/
theorem Did.parse_iff (s : Str) (u : DidUrl) : Did.parse s = .ok u ↔ s = Did.display u ∧ Delimited u := by
  obtain ⟨h1, h2⟩ := Did.splitAt_spec '#' s
  constructor
  · intro h
    rw [Did.parse] at h
    generalize Did.splitAt '#' s = p at *
    obtain ⟨a, f⟩ := p
    simp only at h h1 h2
    split at h
    · rename_i hp
      obtain ⟨h3, h4⟩ := Did.splitAt_spec '?' a
      generalize Did.splitAt '?' a = p at *
      obtain ⟨a', q⟩ := p
      simp only at h h3 h4
      obtain ⟨h5, h6, h7⟩ := Did.splitPath_spec a'
      generalize Did.splitPath a' = p at *
      obtain ⟨d, path⟩ := p
      simp only at h h5 h6 h7
      cases h
      subst h6 h4
      rw [List.isPrefixOf_iff_prefix] at hp
      simp only [List.mem_append, not_or] at h1 h3
      refine ⟨by rw [h2, Did.display]; simp [List.append_assoc], ?_, ?_, h7, ?_, ?_⟩
      · rw [List.append_assoc] at hp
        refine did_prefix_append hp ?_
        rcases h7 with rfl | ⟨r, rfl⟩
        · cases q with
          | none => simp [Did.showPart]
          | some q => simp [Did.showPart]
        · simp
      · intro c hc hm
        simp only [List.mem_cons, List.not_mem_nil, or_false] at hm
        rcases hm with rfl | rfl | rfl
        · exact h5 hc
        · exact h3.1 hc
        · exact h1.1.1 hc
      · intro c hc hm
        simp only [List.mem_cons, List.not_mem_nil, or_false] at hm
        rcases hm with rfl | rfl
        · exact h3.2 hc
        · exact h1.1.2 hc
      · intro q' hq hm
        cases hq
        exact h1.2 (by simp [Did.showPart, hm])
    · cases h
  · rintro ⟨rfl, d1, d2, d3, d4, d5⟩
    obtain ⟨did, path, query, fragment⟩ := u
    simp only at d1 d2 d3 d4 d5
    have e1 : '#' ∉ did ++ (path ++ Did.showPart '?' query) := by
      simp only [List.mem_append, not_or]
      refine ⟨fun h => d2 _ h (by simp), fun h => d4 _ h (by simp), ?_⟩
      cases query with
      | none => simp [Did.showPart]
      | some q =>
        simp only [Did.showPart, List.mem_cons, not_or]
        exact ⟨by decide, d5 q rfl⟩
    have e2 : '?' ∉ did ++ path := by
      simp only [List.mem_append, not_or]
      exact ⟨fun h => d2 _ h (by simp), fun h => d4 _ h (by simp)⟩
    have e3 : '/' ∉ did := fun h => d2 _ h (by simp)
    have hs : Did.display ⟨did, path, query, fragment⟩ =
        (did ++ (path ++ Did.showPart '?' query)) ++ Did.showPart '#' fragment := by
      simp [Did.display, List.append_assoc]
    rw [hs, Did.parse, Did.splitAt_of _ _ _ e1]
    simp only
    rw [if_pos, ← List.append_assoc, Did.splitAt_of _ _ _ e2]
    · simp only
      rw [Did.splitPath_of _ _ e3 d3]
    · rw [List.isPrefixOf_iff_prefix]
      exact d1.trans (List.prefix_append _ _)

/-- Refused texts lack the scheme. -/
theorem Did.parse_error (s : Str) (e : Str) :
    Did.parse s = .error e ↔ ¬ str! "did:" <+: s ∧ e = str! "Invalid DID URL" := by
  obtain ⟨h1, h2⟩ := Did.splitAt_spec '#' s
  have hp : str! "did:" <+: s ↔ str! "did:" <+: (Did.splitAt '#' s).1 := by
    constructor
    · intro h
      rw [h2] at h
      refine did_prefix_append h ?_
      cases (Did.splitAt '#' s).2 <;> simp [Did.showPart]
    · intro h
      rw [h2]
      exact h.trans (List.prefix_append _ _)
  rw [hp, Did.parse]
  simp only
  by_cases h : (str! "did:").isPrefixOf (Did.splitAt '#' s).1
  · rw [if_pos h]
    rw [List.isPrefixOf_iff_prefix] at h
    simp [h]
  · rw [if_neg h]
    rw [List.isPrefixOf_iff_prefix] at h
    simp only [Except.error.injEq, h, not_false_eq_true, true_and]
    exact eq_comm

theorem upToDelimiter_unique {s d d' : Str} (h : UpToDelimiter s d) (h' : UpToDelimiter s d') : d = d' := by
  have key : ∀ s d, UpToDelimiter s d → d = s.takeWhile fun c => decide (c ∉ ['/', '?', '#']) := by
    rintro s d ⟨h1, h2⟩
    have ha : ∀ c ∈ d, (decide (c ∉ ['/', '?', '#'])) = true := fun c hc => decide_eq_true (h1 c hc)
    rcases h2 with rfl | ⟨c, r, rfl, hc⟩
    · have := List.takeWhile_append_of_pos (l₂ := []) ha
      simpa using this.symm
    · rw [List.takeWhile_append_of_pos ha, List.takeWhile_cons_of_neg (by rw [decide_eq_true_eq]; exact fun h => h hc), List.append_nil]
  rw [key s d h, key s d' h']

theorem Did.parse_did {s : Str} {u : DidUrl} (h : Did.parse s = .ok u) :
    str! "did:" <+: s ∧ UpToDelimiter s u.did := by
  obtain ⟨rfl, d1, d2, d3, d4, d5⟩ := (Did.parse_iff s u).1 h
  refine ⟨d1.trans (List.prefix_append _ _), d2, ?_⟩
  obtain ⟨did, path, query, fragment⟩ := u
  simp only [Did.display] at *
  rcases d3 with rfl | ⟨r, rfl⟩
  · cases query with
    | some q => exact .inr ⟨'?', _, rfl, by decide⟩
    | none =>
      cases fragment with
      | some f => exact .inr ⟨'#', _, rfl, by decide⟩
      | none => left; simp [Did.showPart]
  · exact .inr ⟨'/', _, rfl, by decide⟩

theorem Did.parse_of {s d : Str} (h : str! "did:" <+: s) (hd : UpToDelimiter s d) :
    ∃ u, Did.parse s = .ok u ∧ u.did = d := by
  cases hp : Did.parse s with
  | error e => exact absurd h ((Did.parse_error s e).1 hp).1
  | ok u => exact ⟨u, rfl, upToDelimiter_unique (Did.parse_did hp).2 hd⟩

/-! ### C111: the subject -/

/-- C111. The subject of an accepted request is what precedes the first delimiter in its key id, which begins with
`did:`. -/
theorem C111_subject (x : Ext) (now : Time) (m : CredentialIssuerMetadata) (r : CredentialRequest)
    (offer : Option CredentialOffer) (asm : Option AuthorizationServerMetadata) (doc : Option x.Doc)
    (options : Option EvaluateCredentialRequestOptions) (resp : CredentialIssuerEvaluateRequestResponse)
    (h : evaluateCredentialRequest (withDids x) now m r offer asm doc options = .ok resp) :
    ∃ jwt kid did, Carries (withDids x) r jwt ∧ jwt.header.additionalHeader = some (.keyId kid) ∧
      str! "did:" <+: kid ∧ UpToDelimiter kid did ∧ resp.subjectId = some did := by
  obtain ⟨-, -, o, j, did, key, sig, msg, -, ⟨⟨p, hp1, hj⟩, -⟩, ⟨kid, url, d, vm, jwk, hk1, hk2, rfl, -⟩, -, -, rfl⟩ :=
    (evaluate_ok_iff ..).1 h
  obtain ⟨h1, h2⟩ := Did.parse_did hk2
  exact ⟨j, kid, url.did, ⟨p, hp1, hj⟩, hk1, h1, h2, rfl⟩

/-- C111. The DID that is announced for a valid request with a key id, and when it is refused instead. -/
theorem C111_announced (x : Ext) (r : CredentialRequest) (jwt : ProofJwt) (kid : Str)
    (hv : r.validate (withDids x) = .ok ()) (hj : Carries (withDids x) r jwt)
    (hk : jwt.header.additionalHeader = some (.keyId kid)) :
    (∀ did, preEvaluateCredentialRequest (withDids x) r = .ok ⟨some did⟩ ↔
      str! "did:" <+: kid ∧ UpToDelimiter kid did) ∧
    (∀ e, preEvaluateCredentialRequest (withDids x) r = .err e ↔ ¬ str! "did:" <+: kid ∧
      e = .jwtError (.unableToTransformIntoDid kid (str! "Invalid DID URL"))) := by
  obtain ⟨p, hp, hj⟩ := hj
  have hpre : ∀ d, preEvaluateCredentialRequest (withDids x) r = .ok ⟨d⟩ ↔ jwt.extractDid (withDids x) = .ok d := by
    intro d
    rw [preEvaluate_ok_iff]
    constructor
    · rintro ⟨-, ⟨h, -⟩ | ⟨p', jwt', hp', hj', hd⟩⟩
      · rw [hp] at h; cases h
      · rw [hp] at hp'; cases hp'; rw [hj] at hj'; cases hj'; exact hd
    · exact fun hd => ⟨hv, .inr ⟨p, jwt, hp, hj, hd⟩⟩
  have hdid : jwt.extractDid (withDids x) = match Did.parse kid with
      | .error m => .err (.unableToTransformIntoDid kid m)
      | .ok d => .ok (some d.did) := by
    rw [ProofJwt.extractDid, hk]; rfl
  cases hpk : Did.parse kid with
  | ok u =>
    obtain ⟨h1, h2⟩ := Did.parse_did hpk
    rw [hpk] at hdid
    simp only at hdid
    have hok := (hpre _).2 hdid
    refine ⟨fun did => ?_, fun e => ?_⟩
    · rw [hok]
      simp only [Res.ok.injEq, PreEvaluateCredentialRequestResponse.mk.injEq, Option.some.injEq]
      exact ⟨fun e => e ▸ ⟨h1, h2⟩, fun h => upToDelimiter_unique h2 h.2⟩
    · rw [hok]
      simp [h1]
  | error m =>
    obtain ⟨h1, h2⟩ := (Did.parse_error _ _).1 hpk
    subst h2
    rw [hpk] at hdid
    simp only at hdid
    have herr : preEvaluateCredentialRequest (withDids x) r =
        .err (.jwtError (.unableToTransformIntoDid kid (str! "Invalid DID URL"))) := by
      obtain ⟨-, j', hj', ht⟩ := (C19_request _ r).1 hv p hp
      rw [hj] at hj'; cases hj'
      unfold preEvaluateCredentialRequest
      rw [hv, hp]
      simp only
      rw [hj]
      simp only [Res.mapErr, Res.bind_ok]
      rw [(C19_typ jwt).2 ht, hdid]
      rfl
    refine ⟨fun did => ?_, fun e => ?_⟩
    · rw [herr]; simp [h1]
    · rw [herr]
      simp only [Res.err.injEq, h1, not_false_eq_true, true_and]
      exact eq_comm

/-! ### C112: DID syntax -/

theorem chars_mem {p : Char → Prop} {s : Str} (h : Chars p s) : ∀ c ∈ s, p c ∨ c = '%' ∨ HexDigit c := by
  induction h with
  | nil => simp
  | cons c s hc _ ih =>
    intro d hd
    rcases List.mem_cons.1 hd with rfl | hd
    · exact .inl hc
    · exact ih d hd
  | pct a b s ha hb _ ih =>
    intro d hd
    simp only [List.mem_cons] at hd
    rcases hd with rfl | rfl | rfl | hd
    · exact .inr (.inl rfl)
    · exact .inr (.inr ha)
    · exact .inr (.inr hb)
    · exact ih d hd

instance (c : Char) : Decidable (AlphaNum c) := by unfold AlphaNum; infer_instance
instance (c : Char) : Decidable (HexDigit c) := by unfold HexDigit; infer_instance
instance (c : Char) : Decidable (IdChar c) := by unfold IdChar; infer_instance
instance (c : Char) : Decidable (PChar c) := by unfold PChar; infer_instance

/-- No delimiter stands in a DID. -/
theorem isDid_delimiters {d : Str} (h : IsDid d) : ∀ c ∈ d, c ∉ ['/', '?', '#'] := by
  obtain ⟨m, i, rfl, ⟨-, hm⟩, a, b, rfl, ha, hb, -⟩ := h
  intro c hc hd
  simp only [List.mem_append, List.mem_cons] at hc
  have hx : ¬ (('a' ≤ c ∧ c ≤ 'z') ∨ ('0' ≤ c ∧ c ≤ '9')) ∧ ¬ IdChar c ∧ ¬ HexDigit c ∧ c ≠ ':' ∧ c ≠ '%' ∧ c ≠ 'd' ∧ c ≠ 'i' := by
    simp only [List.mem_cons, List.not_mem_nil, or_false] at hd
    rcases hd with rfl | rfl | rfl <;> decide
  obtain ⟨x1, x2, x3, x4, x5, x6, x7⟩ := hx
  rcases hc with hc | hc | hc | hc | hc
  · simp_all
  · exact x1 (hm c hc)
  · exact x4 hc
  · rcases chars_mem ha c hc with (h | h) | h | h
    · exact x2 h
    · exact x4 h
    · exact x5 h
    · exact x3 h
  · rcases chars_mem hb c hc with h | h | h
    · exact x2 h
    · exact x5 h
    · exact x3 h

theorem isDidUrl_upTo {s d : Str} (h : IsDidUrl s d) : str! "did:" <+: s ∧ UpToDelimiter s d := by
  obtain ⟨path, q, f, rfl, hd, hp, hq, hf⟩ := h
  refine ⟨?_, isDid_delimiters hd, ?_⟩
  · obtain ⟨m, i, rfl, -⟩ := hd
    exact (List.prefix_append _ _).trans (List.prefix_append _ _)
  · rcases hp with rfl | ⟨r, rfl, -⟩
    · rcases hq with rfl | ⟨r, rfl, -⟩
      · rcases hf with rfl | ⟨r, rfl, -⟩
        · left; simp
        · exact .inr ⟨'#', _, rfl, by decide⟩
      · exact .inr ⟨'?', _, rfl, by decide⟩
    · exact .inr ⟨'/', _, rfl, by decide⟩

theorem isDid_colons {d : Str} (h : IsDid d) : 2 ≤ d.count ':' := by
  obtain ⟨m, i, rfl, -⟩ := h
  simp only [List.count_append, List.count_cons_self]
  have : (str! "did:").count ':' = 1 := by decide
  omega

/-- C112, full statement: the subject of an accepted request is a DID by the syntax of DID Core. -/
def C112_statement : Prop := ∀ (x : Ext) (now : Time) (m : CredentialIssuerMetadata) (r : CredentialRequest)
  (offer : Option CredentialOffer) (asm : Option AuthorizationServerMetadata) (doc : Option x.Doc)
  (options : Option EvaluateCredentialRequestOptions) (resp : CredentialIssuerEvaluateRequestResponse),
  evaluateCredentialRequest (withDids x) now m r offer asm doc options = .ok resp →
  ∃ did, resp.subjectId = some did ∧ IsDid did

/-- C112, the part that holds: of a key id that is a DID URL, the subject is its DID, at evaluation and at
pre-evaluation. Missing: key ids that are no DID URLs are not refused. -/
theorem C112_did_url_partial (x : Ext) (now : Time) (m : CredentialIssuerMetadata) (r : CredentialRequest)
    (offer : Option CredentialOffer) (asm : Option AuthorizationServerMetadata) (doc : Option x.Doc)
    (options : Option EvaluateCredentialRequestOptions) (resp : CredentialIssuerEvaluateRequestResponse)
    (jwt : ProofJwt) (kid did : Str)
    (hj : Carries (withDids x) r jwt) (hk : jwt.header.additionalHeader = some (.keyId kid))
    (hu : IsDidUrl kid did) :
    (evaluateCredentialRequest (withDids x) now m r offer asm doc options = .ok resp → resp.subjectId = some did) ∧
    (r.validate (withDids x) = .ok () → preEvaluateCredentialRequest (withDids x) r = .ok ⟨some did⟩) := by
  obtain ⟨h1, h2⟩ := isDidUrl_upTo hu
  refine ⟨fun h => ?_, fun h => ((C111_announced x r jwt kid h hj hk).1 did).2 ⟨h1, h2⟩⟩
  obtain ⟨jwt', kid', did', ⟨p', hp', hj'⟩, hk', -, h4, h5⟩ := C111_subject x now m r offer asm doc options resp h
  obtain ⟨p, hp, hj⟩ := hj
  rw [hp] at hp'; cases hp'; rw [hj] at hj'; cases hj'; rw [hk] at hk'; cases hk'
  rw [h5, upToDelimiter_unique h4 h2]

/-- C112. The subject is a DID exactly if the key id has one before its first delimiter: nothing but the prefix
`did:` is checked. -/
theorem C112_iff_partial (x : Ext) (now : Time) (m : CredentialIssuerMetadata) (r : CredentialRequest)
    (offer : Option CredentialOffer) (asm : Option AuthorizationServerMetadata) (doc : Option x.Doc)
    (options : Option EvaluateCredentialRequestOptions) (resp : CredentialIssuerEvaluateRequestResponse)
    (jwt : ProofJwt) (kid : Str)
    (hj : Carries (withDids x) r jwt) (hk : jwt.header.additionalHeader = some (.keyId kid))
    (h : evaluateCredentialRequest (withDids x) now m r offer asm doc options = .ok resp) :
    (∃ did, resp.subjectId = some did ∧ IsDid did) ↔ ∃ did, UpToDelimiter kid did ∧ IsDid did := by
  obtain ⟨jwt', kid', did', ⟨p', hp', hj'⟩, hk', -, h4, h5⟩ := C111_subject x now m r offer asm doc options resp h
  obtain ⟨p, hp, hj⟩ := hj
  rw [hp] at hp'; cases hp'; rw [hj] at hj'; cases hj'; rw [hk] at hk'; cases hk'
  rw [h5]
  constructor
  · rintro ⟨did, hd, hi⟩; cases hd; exact ⟨_, h4, hi⟩
  · rintro ⟨did, hu, hi⟩; exact ⟨_, rfl, upToDelimiter_unique h4 hu ▸ hi⟩

/-- A header with another key id. -/
def Ex.headerOf (kid : Str) : ProofJwtHeader := { Ex.header with additionalHeader := some (.keyId kid) }

/-- The proof of `Ex.request` with another key id. -/
def Ex.requestOf (kid : Str) : CredentialRequest :=
  ⟨Ex.mdoc, some ⟨str! "jwt", compact (withDids Ex.ext) (Ex.headerOf kid) Ex.plainBody (some (str! "c2ln"))⟩⟩

theorem Ex.fromStr_requestOf (kid : Str) :
    ProofJwt.fromStr (withDids Ex.ext) (compact (withDids Ex.ext) (Ex.headerOf kid) Ex.plainBody (some (str! "c2ln")))
    = .ok ⟨Ex.headerOf kid, Ex.plainBody, some (str! "c2ln")⟩ :=
  fromStr_compact _ _ _ _ Ex.timesOk_plainBody (by simp [NoDot])

/-- Whatever precedes the fragment `k`, the request is accepted. -/
theorem Ex.evaluates_kid (kid : Str) (u : DidUrl) (h : Did.parse kid = .ok u) (hf : u.fragment = some (str! "k")) :
    ∃ resp, evaluateCredentialRequest (withDids Ex.ext) 1000 Ex.metadata (Ex.requestOf kid) (some Ex.pinOffer) none
      (some Ex.didDoc) Ex.options = .ok resp ∧ resp.subjectId = some u.did := by
  obtain ⟨sig, hs⟩ := (extractSignature_ok (withDids Ex.ext) ⟨Ex.headerOf kid, Ex.plainBody, some (str! "c2ln")⟩).2
    (.inl (by simp))
  obtain ⟨msg, hm⟩ := signable_ok (withDids Ex.ext) ⟨Ex.headerOf kid, Ex.plainBody, some (str! "c2ln")⟩
  have hb : Bound (withDids Ex.ext) 1000 Ex.metadata (Ex.requestOf kid) Ex.pinOffer Ex.options
      ⟨Ex.headerOf kid, Ex.plainBody, some (str! "c2ln")⟩ :=
    { proof := ⟨_, rfl, Ex.fromStr_requestOf kid⟩
      typ := Ex.bound.typ
      nonce := Ex.bound.nonce
      aud := Ex.bound.aud
      iss := Ex.bound.iss }
  have hsel : Ex.ext.select Ex.didDoc u = .verificationMethod (⟨none, .okp [1, 2, 3]⟩ : Jwk) := by
    show (match List.find? (fun p : Str × Jwk => decide (some p.1 = u.fragment)) Ex.didDoc with
      | some p => Selected.verificationMethod p.2
      | none => Selected.error (str! "not found")) = _
    rw [hf]
    rfl
  have hk : KeyResolved (withDids Ex.ext) (Ex.headerOf kid) (some Ex.didDoc) u.did [1, 2, 3] :=
    ⟨kid, u, Ex.didDoc, _, _, rfl, h, rfl, rfl, hsel, rfl, .inl rfl⟩
  exact ⟨_, (evaluate_ok_iff ..).2 ⟨Ex.distinct_metadata, rfl, _, _, _, _, _, _, rfl, hb, hk, hs, hm, rfl⟩, rfl⟩

/-- C112. A key id as in the test of jwt/mod.rs:788-801 (`did:example/key1`), with a fragment: accepted, and the
subject has no method-specific identifier. With `did:#k` the subject is only the scheme. -/
theorem C112_violation :
    (∃ resp, evaluateCredentialRequest (withDids Ex.ext) 1000 Ex.metadata (Ex.requestOf (str! "did:example/key1#k"))
      (some Ex.pinOffer) none (some Ex.didDoc) Ex.options = .ok resp ∧ resp.subjectId = some (str! "did:example")) ∧
    (∃ resp, evaluateCredentialRequest (withDids Ex.ext) 1000 Ex.metadata (Ex.requestOf (str! "did:#k"))
      (some Ex.pinOffer) none (some Ex.didDoc) Ex.options = .ok resp ∧ resp.subjectId = some (str! "did:")) ∧
    ¬ IsDid (str! "did:example") ∧ ¬ IsDid (str! "did:") :=
  ⟨Ex.evaluates_kid _ ⟨str! "did:example", str! "/key1", none, some (str! "k")⟩ (by decide +kernel) rfl,
    Ex.evaluates_kid _ ⟨str! "did:", [], none, some (str! "k")⟩ (by decide +kernel) rfl,
    fun h => absurd (isDid_colons h) (by decide), fun h => absurd (isDid_colons h) (by decide)⟩

theorem C112_refuted : ¬ C112_statement := by
  intro h
  obtain ⟨⟨resp, h1, h2⟩, -, h3, -⟩ := C112_violation
  obtain ⟨did, h4, h5⟩ := h _ _ _ _ _ _ _ _ _ h1
  rw [h2] at h4
  cases h4
  exact h3 h5

/-! ### C113: reports of keys that are not found -/

/-- C113. A key that the document does not have is reported under the key id, letter for letter. -/
theorem C113_not_in_document (x : Ext) (h : ProofJwtHeader) (doc : x.Doc) (kid msg : Str) (u : DidUrl)
    (hk : h.additionalHeader = some (.keyId kid)) (hu : Did.parse kid = .ok u) (hs : x.select doc u = .error msg) :
    h.extractKeyAndAlg (withDids x) (some doc) = .err (.unableToResolveDidInDidDocument kid msg) := by
  have hd : Did.display u = kid := ((Did.parse_iff kid u).1 hu).1.symm
  have hu' : (withDids x).didUrl kid = .ok u := hu
  have hs' : (withDids x).select doc u = .error msg := hs
  rw [ProofJwtHeader.extractKeyAndAlg, hk]
  simp only [hu', hs']
  exact congrArg (fun d => Res.err (JwtError.unableToResolveDidInDidDocument d msg)) hd

/-- C113. Every such report of an evaluation names the key id of the JWT of the request. -/
theorem C113_report (x : Ext) (now : Time) (m : CredentialIssuerMetadata) (r : CredentialRequest)
    (offer : Option CredentialOffer) (asm : Option AuthorizationServerMetadata) (doc : Option x.Doc)
    (options : Option EvaluateCredentialRequestOptions) (kid msg : Str)
    (h : evaluateCredentialRequest (withDids x) now m r offer asm doc options =
      .err (.jwtError (.unableToResolveDidInDidDocument kid msg))) :
    ∃ jwt, Carries (withDids x) r jwt ∧ jwt.header.additionalHeader = some (.keyId kid) ∧ str! "did:" <+: kid := by
  have hr := (C60_evaluate_errors (withDids x) now m r offer asm doc options _).1 h
  cases hr with
  | key o jwt e had hk =>
    cases hk with
    | notInDocument kid' url d msg hh hu hd hs =>
      have hd : Did.display url = kid' := ((Did.parse_iff kid' url).1 hu).1.symm
      refine ⟨jwt, had.carries, ?_, ?_⟩
      · rw [hh]; exact congrArg (fun s => some (ProofJwtAdditionalHeader.keyId s)) hd.symm
      · exact (congrArg (fun s => str! "did:" <+: s) hd).mpr (Did.parse_did hu).1
    | jwkUnusable k jwk e _ _ hu => cases hu
    | kidUnusable kid url d vm jwk e _ _ _ _ _ hu => cases hu

/-- C113. Reading a DID URL and printing it are inverse, on delimited components. -/
theorem C113_round_trip :
    (∀ s u, Did.parse s = .ok u → Did.display u = s) ∧
    (∀ u, Delimited u → Did.parse (Did.display u) = .ok u) ∧
    (∀ s e, Did.parse s = .error e ↔ ¬ str! "did:" <+: s ∧ e = str! "Invalid DID URL") :=
  ⟨fun s u h => ((Did.parse_iff s u).1 h).1.symm, fun u h => (Did.parse_iff _ u).2 ⟨rfl, h⟩, Did.parse_error⟩

/-! ### Examples -/

/-- The key id of jwt/mod.rs:594, with path. -/
example : Did.parse (str! "did:example:ebfeb1f712ebc6f1c276e12ec21/keys/1") =
    .ok ⟨str! "did:example:ebfeb1f712ebc6f1c276e12ec21", str! "/keys/1", none, none⟩ := by decide +kernel

/-- All components; a second number sign and question mark belong to the later component. -/
example : Did.parse (str! "did:web:a:b/p?q?/#f#?") =
    .ok ⟨str! "did:web:a:b", str! "/p", some (str! "q?/"), some (str! "f#?")⟩ := by decide +kernel

/-- It is delimited, and printed again. -/
example : Delimited ⟨str! "did:web:a:b", str! "/p", some (str! "q?/"), some (str! "f#?")⟩ :=
  ((Did.parse_iff _ _).1 (show Did.parse (str! "did:web:a:b/p?q?/#f#?") = _ by decide +kernel)).2

/-- Other schemes are refused. -/
example : Did.parse (str! "https://h/#k") = .error (str! "Invalid DID URL") := by decide +kernel

/-- A DID URL with percent-encoding in its DID, by DID Core. -/
theorem Ex.didUrl : IsDidUrl (str! "did:web:h%3A3000#k") (str! "did:web:h%3A3000") := by
  refine ⟨[], [], str! "#k", by decide, ?_, .inl rfl, .inl rfl, .inr ⟨str! "k", rfl, ?_⟩⟩
  · refine ⟨str! "web", str! "h%3A3000", by decide, ⟨by decide, by decide⟩, str! "h%3A", str! "3000", by decide,
      ?_, ?_, by decide⟩
    · exact .cons _ _ (by decide) (.pct _ _ _ (by decide) (by decide) .nil)
    · exact .cons _ _ (by decide) (.cons _ _ (by decide) (.cons _ _ (by decide) (.cons _ _ (by decide) .nil)))
  · exact .cons _ _ (by decide) .nil

/-- C111, C112, with this key id: accepted, and the subject is its DID. -/
example : ∃ resp, evaluateCredentialRequest (withDids Ex.ext) 1000 Ex.metadata
    (Ex.requestOf (str! "did:web:h%3A3000#k")) (some Ex.pinOffer) none (some Ex.didDoc) Ex.options = .ok resp ∧
    resp.subjectId = some (str! "did:web:h%3A3000") := by
  obtain ⟨resp, h, -⟩ := Ex.evaluates_kid (str! "did:web:h%3A3000#k")
    ⟨str! "did:web:h%3A3000", [], none, some (str! "k")⟩ (by decide +kernel) rfl
  exact ⟨resp, h, (C112_did_url_partial Ex.ext 1000 Ex.metadata _ _ _ _ _ resp _ _ _
    ⟨_, rfl, Ex.fromStr_requestOf _⟩ rfl Ex.didUrl).1 h⟩

/-- C113, with a fragment that the document does not have (as in jwt/mod.rs:767-786). -/
example : (Ex.headerOf (str! "did:example:123/p?q#key-100")).extractKeyAndAlg (withDids Ex.ext) (some Ex.didDoc) =
    .err (.unableToResolveDidInDidDocument (str! "did:example:123/p?q#key-100") (str! "not found")) :=
  C113_not_in_document Ex.ext _ _ _ _ ⟨str! "did:example:123", str! "/p", some (str! "q"), some (str! "key-100")⟩
    rfl (by decide +kernel) rfl

/-- C111, refused at pre-evaluation. -/
example : preEvaluateCredentialRequest (withDids Ex.ext) (Ex.requestOf (str! "key-1")) =
    .err (.jwtError (.unableToTransformIntoDid (str! "key-1") (str! "Invalid DID URL"))) := by
  refine ((C111_announced Ex.ext _ _ (str! "key-1") ?_ ⟨_, rfl, Ex.fromStr_requestOf _⟩ rfl).2 _).2
    ⟨by decide, rfl⟩
  rw [C19_request]
  rintro p ⟨⟩
  exact ⟨(uppercase_eq_iff _).1 (by decide +kernel), _, Ex.fromStr_requestOf _, Ex.bound.typ⟩

end Oid4vci
