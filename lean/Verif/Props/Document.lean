import Verif.Spec.Document
import Verif.Props.Did
import Verif.Props.Panic

/-! C126, C127: the key that a DID document has under the key id of a proof. -/

namespace Oid4vci

open Spec CredentialIssuer

/-! ### The search -/

section
variable {VM : Type} (rules : SelectRules) (d : Document VM)

theorem Document.named_some {kid : Str} {u : DidUrl} (hp : Did.parse kid = .ok u) {e : DocumentEntry VM} {vm : VM} :
    Document.named rules d u e = some vm ↔ ∃ id, e = .method id vm ∧ GoesBy rules d kid id := by
  cases e with
  | reference u => simp [Document.named]
  | method id vm' =>
    obtain ⟨-, hu⟩ := Did.parse_did hp
    obtain ⟨rfl, -⟩ := (Did.parse_iff kid u).1 hp
    have hs : (id = Did.display u ∨ (rules.relative = true ∧ u.did = d.id ∧ id = Did.display { u with did := [] })) ↔
        GoesBy rules d (Did.display u) id := by
      have hd : Did.display u = u.did ++ Did.display { u with did := [] } := rfl
      unfold GoesBy
      refine or_congr_right (and_congr_right fun _ => ?_)
      constructor
      · rintro ⟨h1, h2⟩
        exact ⟨h1 ▸ hu, by rw [← h1, h2]; exact hd⟩
      · rintro ⟨h1, h2⟩
        have h3 := upToDelimiter_unique hu h1
        refine ⟨h3, ?_⟩
        rw [hd, h3] at h2
        exact (List.append_cancel_left h2).symm
    simp only [Document.named, DocumentEntry.method.injEq]
    by_cases h : GoesBy rules d (Did.display u) id
    · rw [if_pos (hs.2 h)]
      simp only [Option.some.injEq]
      exact ⟨fun e => ⟨id, ⟨rfl, e⟩, h⟩, fun ⟨_, e, _⟩ => e.2⟩
    · rw [if_neg (fun h' => h (hs.1 h'))]
      simp only [reduceCtorEq, false_iff]
      rintro ⟨id', ⟨rfl, -⟩, h'⟩
      exact h h'

theorem Document.named_none {kid : Str} {u : DidUrl} (hp : Did.parse kid = .ok u) {l : List (DocumentEntry VM)} :
    (∀ e ∈ l, Document.named rules d u e = none) ↔ NoMethod rules d kid l := by
  constructor
  · intro h id vm hm hs
    have := h _ hm
    rw [(Document.named_some rules d hp).2 ⟨id, rfl, hs⟩] at this; cases this
  · intro h e he
    cases hn : Document.named rules d u e with
    | none => rfl
    | some vm =>
      obtain ⟨id, rfl, hs⟩ := (Document.named_some rules d hp).1 hn
      exact absurd hs (h id vm he)

theorem flatten_first {α β : Type} (f : α → Option β) : ∀ (ls : List (List α)) (b : β),
    ls.flatten.findSome? f = some b ↔
      ∃ earlier l later before a after, ls = earlier ++ l :: later ∧ l = before ++ a :: after ∧ f a = some b ∧
        (∀ l' ∈ earlier, ∀ a ∈ l', f a = none) ∧ ∀ a ∈ before, f a = none
  | [], b => by simp
  | l :: ls, b => by
    rw [List.flatten_cons, List.findSome?_append]
    cases h : l.findSome? f with
    | some b0 =>
      obtain ⟨before, a, after, h1, h2, h3⟩ := List.findSome?_eq_some_iff.1 h
      simp only [Option.some_or, Option.some.injEq]
      constructor
      · rintro rfl
        exact ⟨[], l, ls, before, a, after, rfl, h1, h2, by simp, h3⟩
      · rintro ⟨earlier, l', later, before', a', after', e1, e2, e3, e4, e5⟩
        cases earlier with
        | nil =>
          simp only [List.nil_append, List.cons.injEq] at e1
          obtain ⟨rfl, -⟩ := e1
          have : l.findSome? f = some b := List.findSome?_eq_some_iff.2 ⟨before', a', after', e2, e3, e5⟩
          rw [h] at this; exact Option.some.inj this
        | cons l0 earlier =>
          simp only [List.cons_append, List.cons.injEq] at e1
          obtain ⟨rfl, -⟩ := e1
          have := e4 l (by simp) a (h1 ▸ by simp)
          rw [h2] at this; cases this
    | none =>
      have hn : ∀ a ∈ l, f a = none := List.findSome?_eq_none_iff.1 h
      rw [Option.none_or, flatten_first f ls b]
      constructor
      · rintro ⟨earlier, l', later, before, a, after, rfl, e2, e3, e4, e5⟩
        refine ⟨l :: earlier, l', later, before, a, after, rfl, e2, e3, fun l'' hl => ?_, e5⟩
        rcases List.mem_cons.1 hl with rfl | hl
        · exact hn
        · exact e4 l'' hl
      · rintro ⟨earlier, l', later, before, a, after, e1, e2, e3, e4, e5⟩
        cases earlier with
        | nil =>
          simp only [List.nil_append, List.cons.injEq] at e1
          obtain ⟨rfl, -⟩ := e1
          have := hn a (e2 ▸ by simp)
          rw [e3] at this; cases this
        | cons l0 earlier =>
          simp only [List.cons_append, List.cons.injEq] at e1
          obtain ⟨rfl, rfl⟩ := e1
          exact ⟨earlier, l', later, before, a, after, rfl, e2, e3, fun l'' hl => e4 l'' (by simp [hl]), e5⟩

theorem listsOf_flatten : (listsOf rules d).flatten = [d.verificationMethod, d.authentication, d.assertionMethod,
    d.keyAgreement, d.capabilityInvocation, d.capabilityDelegation,
    if rules.publicKey then d.publicKey else none].flatMap (·.getD []) := by
  unfold listsOf
  cases rules.publicKey <;> rfl

theorem Document.select_some {u : DidUrl} {vm : VM}
    (h : (listsOf rules d).flatten.findSome? (Document.named rules d u) = some vm) :
    d.select rules u = .verificationMethod vm := by
  rw [Document.select, ← listsOf_flatten, h]

theorem Document.select_none {u : DidUrl}
    (h : (listsOf rules d).flatten.findSome? (Document.named rules d u) = none) :
    d.select rules u = .error (str! "Resource not found") := by
  rw [Document.select, ← listsOf_flatten, h]

theorem find_first {kid : Str} {u : DidUrl} (hp : Did.parse kid = .ok u) (vm : VM) :
    (listsOf rules d).flatten.findSome? (Document.named rules d u) = some vm ↔ FirstMethod rules d kid vm := by
  rw [flatten_first, FirstMethod]
  constructor
  · rintro ⟨earlier, l, later, before, a, after, e1, e2, e3, e4, e5⟩
    obtain ⟨id, rfl, hs⟩ := (Document.named_some rules d hp).1 e3
    exact ⟨earlier, l, later, before, id, after, e1, e2, hs, fun l' hl => (Document.named_none rules d hp).1 (e4 l' hl),
      (Document.named_none rules d hp).1 e5⟩
  · rintro ⟨earlier, l, later, before, id, after, e1, e2, hs, e4, e5⟩
    exact ⟨earlier, l, later, before, _, after, e1, e2, (Document.named_some rules d hp).2 ⟨id, rfl, hs⟩,
      fun l' hl => (Document.named_none rules d hp).2 (e4 l' hl), (Document.named_none rules d hp).2 e5⟩

theorem find_none {kid : Str} {u : DidUrl} (hp : Did.parse kid = .ok u) :
    (listsOf rules d).flatten.findSome? (Document.named rules d u) = none ↔ ∀ vm, ¬ HasMethod rules d kid vm := by
  rw [List.findSome?_eq_none_iff, Document.named_none rules d hp]
  constructor
  · rintro h vm ⟨l, hl, id, hs, hm⟩
    exact h id vm (List.mem_flatten.2 ⟨l, hl, hm⟩) hs
  · intro h id vm hm hs
    obtain ⟨l, hl, hm⟩ := List.mem_flatten.1 hm
    exact h vm ⟨l, hl, id, hs, hm⟩

theorem Document.select_method {kid : Str} {u : DidUrl} (hp : Did.parse kid = .ok u) (vm : VM) :
    d.select rules u = .verificationMethod vm ↔ FirstMethod rules d kid vm := by
  rw [← find_first rules d hp]
  cases h : (listsOf rules d).flatten.findSome? (Document.named rules d u) with
  | none => rw [Document.select_none rules d h]; simp
  | some vm' => rw [Document.select_some rules d h]; simp

theorem Document.select_error {kid : Str} {u : DidUrl} (hp : Did.parse kid = .ok u) (msg : Str) :
    d.select rules u = .error msg ↔ msg = str! "Resource not found" ∧ ∀ vm, ¬ HasMethod rules d kid vm := by
  rw [← find_none rules d hp]
  cases h : (listsOf rules d).flatten.findSome? (Document.named rules d u) with
  | none => rw [Document.select_none rules d h]; simp [eq_comm]
  | some vm' => rw [Document.select_some rules d h]; simp

theorem Document.select_other (u : DidUrl) : d.select rules u ≠ .other := by
  cases h : (listsOf rules d).flatten.findSome? (Document.named rules d u) with
  | none => rw [Document.select_none rules d h]; simp
  | some vm => rw [Document.select_some rules d h]; simp

end

theorem firstMethod_has {VM : Type} {rules : SelectRules} {d : Document VM} {kid : Str} {vm : VM}
    (h : FirstMethod rules d kid vm) : HasMethod rules d kid vm := by
  obtain ⟨earlier, l, later, before, id, after, e1, e2, hs, -⟩ := h
  exact ⟨l, e1 ▸ by simp, id, hs, e2 ▸ by simp⟩

/-! ### C126 -/

/-- C126. The key is that of the first verification method which goes by the key id (its id is the key id letter for letter
or, if relative ids count, what follows the document's own DID in it); the algorithm is that of the header. -/
theorem C126_key (rules : SelectRules) (x : Ext) (h : ProofJwtHeader) (d : Document x.VM) (kid : Str)
    (hk : h.additionalHeader = some (.keyId kid)) (key : Bytes) (alg : ProofJwtAlgorithm) :
    h.extractKeyAndAlg (withDocuments rules x) (some d) = .ok (key, alg) ↔
      alg = h.alg ∧ str! "did:" <+: kid ∧ ∃ vm jwk, FirstMethod rules d kid vm ∧ x.getJwk vm = .ok jwk ∧ KeyBytes jwk key := by
  rw [ProofJwtHeader.extractKeyAndAlg, hk]
  cases hp : Did.parse kid with
  | error m =>
    have hp' : (withDocuments rules x).didUrl kid = .error m := hp
    simp only [hp']
    have hn := ((Did.parse_error _ _).1 hp).1
    simp [hn]
  | ok u =>
    have hp' : (withDocuments rules x).didUrl kid = .ok u := hp
    have hd : Did.display u = kid := ((Did.parse_iff kid u).1 hp).1.symm
    simp only [hp']
    have hpre := (Did.parse_did hp).1
    cases hs : d.select rules u with
    | other => exact absurd hs (Document.select_other rules d u)
    | error m =>
      have hs' : (withDocuments rules x).select d u = .error m := hs
      have hn := ((Document.select_error rules d hp m).1 hs).2
      simp only [hs', reduceCtorEq, false_iff, not_and, not_exists]
      rintro - - vm jwk h1
      exact absurd (firstMethod_has h1) (hn vm)
    | verificationMethod vm =>
      have hs' : (withDocuments rules x).select d u = .verificationMethod vm := hs
      have hf : FirstMethod rules d kid vm := (Document.select_method rules d hp vm).1 hs
      have huniq : ∀ vm', FirstMethod rules d kid vm' → vm' = vm := fun vm' h' => by
        have := (Document.select_method rules d hp vm').2 h'
        rw [hs] at this; cases this; rfl
      simp only [hs']
      cases hj : x.getJwk vm with
      | error m =>
        have hj' : (withDocuments rules x).getJwk vm = .error m := hj
        simp only [hj', reduceCtorEq, false_iff, not_and, not_exists]
        rintro - - vm' jwk h1 h2
        rw [huniq vm' h1, hj] at h2; cases h2
      | ok jwk =>
        have hj' : (withDocuments rules x).getJwk vm = .ok jwk := hj
        simp only [hj', Res.bind_eq_ok, Res.ok.injEq, Prod.mk.injEq, jwkToPublicKeyBytes_ok]
        constructor
        · rintro ⟨k, h1, rfl, rfl⟩
          exact ⟨rfl, hpre, vm, jwk, hf, hj, h1⟩
        · rintro ⟨rfl, -, vm', jwk', h1, h2, h3⟩
          rw [huniq vm' h1, hj] at h2; cases h2
          exact ⟨key, h3, rfl, rfl⟩

/-- C126. A key that the document does not have is reported as not found, under the key id; all other documents have
it. -/
theorem C126_not_found (rules : SelectRules) (x : Ext) (h : ProofJwtHeader) (d : Document x.VM) (kid : Str)
    (hk : h.additionalHeader = some (.keyId kid)) (kid' msg : Str) :
    h.extractKeyAndAlg (withDocuments rules x) (some d) = .err (.unableToResolveDidInDidDocument kid' msg) ↔
      kid' = kid ∧ msg = str! "Resource not found" ∧ str! "did:" <+: kid ∧ ∀ vm, ¬ HasMethod rules d kid vm := by
  rw [ProofJwtHeader.extractKeyAndAlg, hk]
  cases hp : Did.parse kid with
  | error m =>
    have hp' : (withDocuments rules x).didUrl kid = .error m := hp
    simp only [hp']
    have hn := ((Did.parse_error _ _).1 hp).1
    simp [hn]
  | ok u =>
    have hp' : (withDocuments rules x).didUrl kid = .ok u := hp
    have hd : Did.display u = kid := ((Did.parse_iff kid u).1 hp).1.symm
    have hd' : (withDocuments rules x).didUrlDisplay u = kid := hd
    have hpre := (Did.parse_did hp).1
    simp only [hp']
    cases hs : d.select rules u with
    | other => exact absurd hs (Document.select_other rules d u)
    | error m =>
      have hs' : (withDocuments rules x).select d u = .error m := hs
      obtain ⟨hm, hn⟩ := (Document.select_error rules d hp m).1 hs
      simp only [hs', hd', Res.err.injEq, JwtError.unableToResolveDidInDidDocument.injEq]
      exact ⟨fun e => ⟨e.1.symm, e.2 ▸ hm, hpre, hn⟩, fun e => ⟨e.1.symm, hm.trans e.2.1.symm⟩⟩
    | verificationMethod vm =>
      have hs' : (withDocuments rules x).select d u = .verificationMethod vm := hs
      have hf : FirstMethod rules d kid vm := (Document.select_method rules d hp vm).1 hs
      simp only [hs']
      constructor
      · intro he
        cases hj : (withDocuments rules x).getJwk vm with
        | error m => rw [hj] at he; cases he
        | ok jwk =>
          rw [hj] at he
          simp only [Res.bind_eq_err, reduceCtorEq, and_false, exists_false, or_false] at he
          unfold ProofJwtHeader.jwkToPublicKeyBytes at he
          cases hpr : jwk.params with
          | ec px =>
            rw [hpr] at he
            simp only at he
            split at he
            · cases px <;> cases he
            · cases he
          | okp pk => rw [hpr] at he; cases he
          | other => rw [hpr] at he; cases he
      · rintro ⟨-, -, -, hn⟩
        exact absurd (firstMethod_has hf) (hn vm)

/-- C126. With these documents the branch that the code takes for unreachable is so, and evaluation panics only if the end
of the nonce's lifetime is not representable. -/
theorem C126_calm (rules : SelectRules) (x : Ext) (now : Time) (m : CredentialIssuerMetadata) (r : CredentialRequest)
    (offer : Option CredentialOffer) (asm : Option AuthorizationServerMetadata) (doc : Option (Document x.VM))
    (options : Option EvaluateCredentialRequestOptions) :
    (∀ h : ProofJwtHeader, h.extractKeyAndAlg (withDocuments rules x) doc ≠ .panic) ∧
    (evaluateCredentialRequest (withDocuments rules x) now m r offer asm doc options = .panic ↔
      DistinctIds m.credentialsSupported ∧ asm = none ∧ offer ≠ none ∧
        ∃ c, nonceOptions options = some c ∧ Time.max < nonceExpiry c) := by
  have hs : ∀ (d : Document x.VM) u, (withDocuments rules x).select d u ≠ .other :=
    Document.select_other rules
  constructor
  · intro h hp
    obtain ⟨kid, url, d, -, -, -, hsel⟩ := (extractKeyAndAlg_panic (withDocuments rules x) ⟨h, ⟨none, [], none, 0, [], none, none⟩, none⟩ doc).1 hp
    exact hs d url hsel
  · refine (C46_evaluate_panics_iff ..).trans ⟨?_, ?_⟩
    · rintro ⟨h1, h2, o, rfl, h | ⟨_, _, url, d, -, -, -, -, hsel⟩⟩
      · exact ⟨h1, h2, by simp, h⟩
      · exact absurd hsel (hs d url)
    · rintro ⟨h1, h2, h3, h⟩
      cases offer with
      | none => exact absurd rfl h3
      | some o => exact ⟨h1, h2, o, rfl, .inl h⟩

theorem first_iff_has {VM : Type} {rules : SelectRules} {d : Document VM} (hu : UniqueMethods rules d) {kid : Str}
    {u : DidUrl} (hp : Did.parse kid = .ok u) {vm : VM} : FirstMethod rules d kid vm ↔ HasMethod rules d kid vm := by
  refine ⟨firstMethod_has, fun h => ?_⟩
  cases hf : (listsOf rules d).flatten.findSome? (Document.named rules d u) with
  | none => exact absurd h ((find_none rules d hp).1 hf vm)
  | some vm' =>
    have h' := (find_first rules d hp vm').1 hf
    exact hu kid vm vm' h (firstMethod_has h') ▸ h'

theorem select_same {VM : Type} {rules : SelectRules} {d d' : Document VM} (hu : UniqueMethods rules d)
    (h : ∀ kid vm, HasMethod rules d kid vm ↔ HasMethod rules d' kid vm) {kid : Str} {u : DidUrl}
    (hp : Did.parse kid = .ok u) : d.select rules u = d'.select rules u := by
  have hu' : UniqueMethods rules d' := fun id vm vm' h1 h2 => hu id vm vm' ((h ..).2 h1) ((h ..).2 h2)
  cases hs : d.select rules u with
  | other => exact absurd hs (Document.select_other rules d u)
  | error m =>
    obtain ⟨hm, hn⟩ := (Document.select_error rules d hp m).1 hs
    exact ((Document.select_error rules d' hp m).2 ⟨hm, fun vm h' => hn vm ((h ..).2 h')⟩).symm
  | verificationMethod vm =>
    have h1 := (first_iff_has hu hp).1 ((Document.select_method rules d hp vm).1 hs)
    exact ((Document.select_method rules d' hp vm).2 ((first_iff_has hu' hp).2 ((h ..).1 h1))).symm

theorem extract_same (rules : SelectRules) (x : Ext) {d d' : Document x.VM}
    (h : ∀ kid u, Did.parse kid = .ok u → d.select rules u = d'.select rules u) (p : ProofJwtHeader) :
    p.extractKeyAndAlg (withDocuments rules x) (some d) = p.extractKeyAndAlg (withDocuments rules x) (some d') := by
  unfold ProofJwtHeader.extractKeyAndAlg
  cases p.additionalHeader with
  | none => rfl
  | some a =>
    cases a with
    | jwk k => rfl
    | x5c k => rfl
    | keyId kid =>
      cases hp : Did.parse kid with
      | error m =>
        have hp' : (withDocuments rules x).didUrl kid = .error m := hp
        simp only [hp']
      | ok u =>
        have hp' : (withDocuments rules x).didUrl kid = .ok u := hp
        have hs : (withDocuments rules x).select d u = (withDocuments rules x).select d' u := h kid u hp
        simp only [hp', hs]

/-- C126. If no id is used twice, nothing matters but which methods the document has under which key ids: not their order,
not the purposes they are listed for, not the references among them, not how the ids are written, and not the document's
own id, unless relative ids refer to it. -/
theorem C126_purpose (rules : SelectRules) (x : Ext) (now : Time) (m : CredentialIssuerMetadata) (r : CredentialRequest)
    (offer : Option CredentialOffer) (asm : Option AuthorizationServerMetadata) (d d' : Document x.VM)
    (options : Option EvaluateCredentialRequestOptions) (hu : UniqueMethods rules d)
    (h : ∀ kid vm, HasMethod rules d kid vm ↔ HasMethod rules d' kid vm) :
    (∀ h : ProofJwtHeader, h.extractKeyAndAlg (withDocuments rules x) (some d)
      = h.extractKeyAndAlg (withDocuments rules x) (some d')) ∧
    evaluateCredentialRequest (withDocuments rules x) now m r offer asm (some d) options
      = evaluateCredentialRequest (withDocuments rules x) now m r offer asm (some d') options := by
  have hk := extract_same rules x (d := d) (d' := d') fun kid u hp => select_same hu h hp
  refine ⟨hk, ?_⟩
  unfold evaluateCredentialRequest ProofJwt.extractKeyAndAlg
  simp only [hk]

/-- C126. In an accepted request the key that is reported is the one which the document has, first, under the key id of the
token; the subject is the part of this id before its first delimiter. -/
theorem C126_subject (rules : SelectRules) (x : Ext) (now : Time) (m : CredentialIssuerMetadata) (r : CredentialRequest)
    (offer : Option CredentialOffer) (asm : Option AuthorizationServerMetadata) (doc : Option (Document x.VM))
    (options : Option EvaluateCredentialRequestOptions) (resp : CredentialIssuerEvaluateRequestResponse)
    (h : evaluateCredentialRequest (withDocuments rules x) now m r offer asm doc options = .ok resp) :
    ∃ jwt kid did d vm jwk pop, Carries (withDocuments rules x) r jwt ∧ jwt.header.additionalHeader = some (.keyId kid) ∧
      doc = some d ∧ FirstMethod rules d kid vm ∧ x.getJwk vm = .ok jwk ∧ resp.proofOfPossession = some pop ∧
      KeyBytes jwk pop.publicKey ∧ resp.subjectId = some did ∧ str! "did:" <+: kid ∧ UpToDelimiter kid did := by
  obtain ⟨-, -, o, j, did, key, sig, msg, -, ⟨⟨p, hp1, hj⟩, -⟩, ⟨kid, url, d, vm, jwk, hk1, hk2, rfl, hd, hs, hg, hb⟩,
    -, -, rfl⟩ := (evaluate_ok_iff ..).1 h
  obtain ⟨h1, h2⟩ := Did.parse_did hk2
  exact ⟨j, kid, url.did, d, vm, jwk, _, ⟨p, hp1, hj⟩, hk1, hd, (Document.select_method rules d hk2 vm).1 hs, hg, rfl, hb,
    rfl, h1, h2⟩

/-! ### C127 -/

/-- C127 in full: evaluation uses the document of the DID in the proof only. -/
def C127_statement (rules : SelectRules) : Prop := ∀ (x : Ext) (now : Time) (m : CredentialIssuerMetadata) (r : CredentialRequest)
  (offer : Option CredentialOffer) (asm : Option AuthorizationServerMetadata) (d : Document x.VM)
  (options : Option EvaluateCredentialRequestOptions) (resp : CredentialIssuerEvaluateRequestResponse),
  evaluateCredentialRequest (withDocuments rules x) now m r offer asm (some d) options = .ok resp → resp.subjectId = some d.id

theorem goesBy_whole {VM : Type} {rules : SelectRules} {d : Document VM} {kid id : Str} (h : str! "did:" <+: id) :
    GoesBy rules d kid id ↔ id = kid := by
  unfold GoesBy
  refine or_iff_left ?_
  rintro ⟨-, ⟨-, h1⟩, h2⟩
  obtain ⟨t, rfl⟩ := h
  rcases h1 with rfl | ⟨c, r, h1, hc⟩
  · have := congrArg List.length h2
    simp at this
  · rw [h1] at h2
    have := List.append_cancel_left h2
    simp only [List.cons_append, List.cons.injEq] at this
    rw [this.1] at hc
    exact absurd hc (by decide)

theorem findSome_congr {α β : Type} {f g : α → Option β} : ∀ {l : List α}, (∀ a ∈ l, f a = g a) →
    l.findSome? f = l.findSome? g
  | [], _ => rfl
  | a :: l, h => by
    rw [List.findSome?_cons, List.findSome?_cons, h a (by simp), findSome_congr fun b hb => h b (by simp [hb])]

/-- C127 is violated: the id of the document is not looked at, where methods are written with their whole ids. -/
theorem C127_not_looked_at (rules : SelectRules) (x : Ext) (now : Time) (m : CredentialIssuerMetadata)
    (r : CredentialRequest) (offer : Option CredentialOffer) (asm : Option AuthorizationServerMetadata)
    (d : Document x.VM) (hw : WholeIds rules d) (id : Str) (options : Option EvaluateCredentialRequestOptions) :
    evaluateCredentialRequest (withDocuments rules x) now m r offer asm (some { d with id := id }) options
      = evaluateCredentialRequest (withDocuments rules x) now m r offer asm (some d) options := by
  have hs : ∀ kid u, Did.parse kid = .ok u → ({ d with id := id } : Document x.VM).select rules u = d.select rules u := by
    intro kid u hp
    have : (listsOf rules d).flatten.findSome? (Document.named rules { d with id := id } u) =
        (listsOf rules d).flatten.findSome? (Document.named rules d u) := by
      refine findSome_congr fun e he => Option.ext fun vm => ?_
      rw [Document.named_some rules _ hp, Document.named_some rules _ hp]
      refine exists_congr fun i => and_congr_right ?_
      rintro rfl
      obtain ⟨l, hl, hm⟩ := List.mem_flatten.1 he
      rw [goesBy_whole (hw l hl i vm hm), goesBy_whole (hw l hl i vm hm)]
    cases hf : (listsOf rules d).flatten.findSome? (Document.named rules d u) with
    | none => rw [Document.select_none rules d hf]; exact Document.select_none rules { d with id := id } (this.trans hf)
    | some vm => rw [Document.select_some rules d hf]; exact Document.select_some rules { d with id := id } (this.trans hf)
  have hk := extract_same rules x hs
  unfold evaluateCredentialRequest ProofJwt.extractKeyAndAlg
  simp only [hk]

/-- C127, partial: it holds for callers who pass the document of the DID which pre-evaluation names. Missing: other
documents are not refused (false). -/
theorem C127_resolved_partial (rules : SelectRules) (x : Ext) (now : Time) (m : CredentialIssuerMetadata) (r : CredentialRequest)
    (offer : Option CredentialOffer) (asm : Option AuthorizationServerMetadata) (d : Document x.VM)
    (options : Option EvaluateCredentialRequestOptions) (pre : PreEvaluateCredentialRequestResponse)
    (resp : CredentialIssuerEvaluateRequestResponse)
    (hp : preEvaluateCredentialRequest (withDocuments rules x) r = .ok pre) (hd : pre.did = some d.id)
    (h : evaluateCredentialRequest (withDocuments rules x) now m r offer asm (some d) options = .ok resp) :
    resp.subjectId = some d.id := by
  rw [← (C26_same_did (x := withDocuments rules x) (h1 := hp) (h2 := h)).1, hd]

/-! ### Examples -/

/-- A document with two keys, of which the second is listed for key agreement only; another method has an id below the DID
of somebody else. -/
def Ex.document : Document Jwk where
  id := str! "did:example:h"
  verificationMethod := some [.method (str! "did:example:h#k") ⟨none, .okp [1, 2, 3]⟩,
    .method (str! "did:example:other#k") ⟨none, .okp [7]⟩]
  authentication := some [.reference (str! "did:example:h#k")]
  assertionMethod := none
  keyAgreement := some [.method (str! "did:example:h#agree") ⟨none, .okp [9]⟩]
  capabilityInvocation := none
  capabilityDelegation := none
  publicKey := none

theorem hasMethod_whole {VM : Type} {rules : SelectRules} {d : Document VM} (hw : WholeIds rules d) {kid : Str} {vm : VM} :
    HasMethod rules d kid vm ↔ ∃ l ∈ listsOf rules d, .method kid vm ∈ l := by
  constructor
  · rintro ⟨l, hl, id, hs, hm⟩
    rw [goesBy_whole (hw l hl id vm hm)] at hs
    exact ⟨l, hl, hs ▸ hm⟩
  · rintro ⟨l, hl, hm⟩
    exact ⟨l, hl, kid, .inl rfl, hm⟩

theorem Ex.whole_document (rules : SelectRules) : WholeIds rules Ex.document := by
  intro l hl id vm hm
  obtain ⟨a, b⟩ := rules
  have hl : l = Ex.document.verificationMethod.getD [] ∨ l = Ex.document.authentication.getD [] ∨
      l = Ex.document.keyAgreement.getD [] ∨ l = [] := by
    cases b <;> simp [listsOf, Ex.document] at hl ⊢ <;> tauto
  rcases hl with rfl | rfl | rfl | rfl
  · simp only [Ex.document, Option.getD_some, List.mem_cons, DocumentEntry.method.injEq, List.not_mem_nil, or_false] at hm
    rcases hm with ⟨rfl, -⟩ | ⟨rfl, -⟩ <;> decide
  · simp [Ex.document] at hm
  · simp only [Ex.document, Option.getD_some, List.mem_cons, DocumentEntry.method.injEq, List.not_mem_nil, or_false] at hm
    rcases hm with ⟨rfl, -⟩; decide
  · simp at hm

theorem Ex.unique_document (rules : SelectRules) : UniqueMethods rules Ex.document := by
  intro kid vm vm' h h'
  rw [hasMethod_whole (Ex.whole_document rules)] at h h'
  obtain ⟨a, b⟩ := rules
  cases b <;>
  · simp [listsOf, Ex.document] at h h'
    grind

/-- A request with each of the three key ids is accepted with this document. -/
theorem Ex.evaluates_document (rules : SelectRules) (kid : Str) (u : DidUrl) (key : Bytes) (h : Did.parse kid = .ok u)
    (hs : Ex.document.select rules u = .verificationMethod ⟨none, .okp key⟩) :
    ∃ resp pop, evaluateCredentialRequest (withDocuments rules Ex.ext) 1000 Ex.metadata (Ex.requestOf kid) (some Ex.pinOffer) none
      (some Ex.document) Ex.options = .ok resp ∧ resp.subjectId = some u.did ∧ resp.proofOfPossession = some pop ∧
      pop.publicKey = key := by
  obtain ⟨sig, hsig⟩ := (extractSignature_ok (withDocuments rules Ex.ext) ⟨Ex.headerOf kid, Ex.plainBody, some (str! "c2ln")⟩).2
    (.inl (by simp))
  obtain ⟨msg, hm⟩ := signable_ok (withDocuments rules Ex.ext) ⟨Ex.headerOf kid, Ex.plainBody, some (str! "c2ln")⟩
  have hb : Bound (withDocuments rules Ex.ext) 1000 Ex.metadata (Ex.requestOf kid) Ex.pinOffer Ex.options
      ⟨Ex.headerOf kid, Ex.plainBody, some (str! "c2ln")⟩ :=
    { proof := ⟨_, rfl, Ex.fromStr_requestOf kid⟩
      typ := Ex.bound.typ
      nonce := Ex.bound.nonce
      aud := Ex.bound.aud
      iss := Ex.bound.iss }
  have hk : KeyResolved (withDocuments rules Ex.ext) (Ex.headerOf kid) (some Ex.document) u.did key :=
    ⟨kid, u, Ex.document, _, _, rfl, h, rfl, rfl, hs, rfl, .inl rfl⟩
  exact ⟨_, _, (evaluate_ok_iff ..).2 ⟨Ex.distinct_metadata, rfl, _, _, _, _, _, _, rfl, hb, hk, hsig, hm, rfl⟩, rfl, rfl,
    rfl⟩

/-- C127 is violated: a document lists a key under the DID of somebody else, and evaluation reports that key with that DID
as the subject. -/
theorem C127_refuted (rules : SelectRules) : ¬ C127_statement rules := by
  intro h
  obtain ⟨resp, pop, h1, h2, -⟩ := Ex.evaluates_document rules (str! "did:example:other#k")
    ⟨str! "did:example:other", [], none, some (str! "k")⟩ [7] (by decide +kernel)
    (by obtain ⟨a, b⟩ := rules; cases a <;> cases b <;> rfl)
  have h3 := h Ex.ext _ _ _ _ _ _ _ _ h1
  rw [h2] at h3
  exact absurd h3 (by decide)

/-- C126, C127: the key listed for key agreement only is used like the others. -/
example (rules : SelectRules) : ∃ resp pop, evaluateCredentialRequest (withDocuments rules Ex.ext) 1000 Ex.metadata
    (Ex.requestOf (str! "did:example:h#agree")) (some Ex.pinOffer) none (some Ex.document) Ex.options = .ok resp ∧
    resp.subjectId = some Ex.document.id ∧ resp.proofOfPossession = some pop ∧ pop.publicKey = [9] :=
  Ex.evaluates_document rules _ ⟨str! "did:example:h", [], none, some (str! "agree")⟩ [9] (by decide +kernel)
    (by obtain ⟨a, b⟩ := rules; cases a <;> cases b <;> rfl)

/-- C126_key and C126_not_found: a key id found, one that is only referred to, and a relative one, which is found if
relative ids count. -/
example (rules : SelectRules) :
    (Ex.headerOf (str! "did:example:h#k")).extractKeyAndAlg (withDocuments rules Ex.ext) (some Ex.document) =
      .ok ([1, 2, 3], Ex.header.alg) ∧
    (Ex.headerOf (str! "did:example:h#k2")).extractKeyAndAlg (withDocuments rules Ex.ext)
      (some { Ex.document with authentication := some [.reference (str! "did:example:h#k2")] }) =
      .err (.unableToResolveDidInDidDocument (str! "did:example:h#k2") (str! "Resource not found")) ∧
    (Ex.headerOf (str! "did:example:h#k2")).extractKeyAndAlg (withDocuments rules Ex.ext)
      (some { Ex.document with verificationMethod := some [.method (str! "#k2") ⟨none, .okp [5]⟩] }) =
      if rules.relative then .ok ([5], Ex.header.alg)
      else .err (.unableToResolveDidInDidDocument (str! "did:example:h#k2") (str! "Resource not found")) := by
  obtain ⟨a, b⟩ := rules
  cases a <;> cases b <;> decide +kernel

/-- The first of two methods with the same id is used. -/
example : FirstMethod ⟨true, true⟩ { Ex.document with
      assertionMethod := some [.method (str! "did:example:h#agree") ⟨none, .okp [8]⟩] } (str! "did:example:h#agree")
    ⟨none, .okp [8]⟩ :=
  (Document.select_method _ _ (u := ⟨str! "did:example:h", [], none, some (str! "agree")⟩) (by decide +kernel) _).1 rfl

/-- The same methods in one list, in another order, in a document of another id. -/
def Ex.shuffled : Document Jwk where
  id := []
  verificationMethod := none
  authentication := none
  assertionMethod := none
  keyAgreement := none
  capabilityInvocation := none
  capabilityDelegation := some [.method (str! "did:example:h#agree") ⟨none, .okp [9]⟩,
    .method (str! "did:example:other#k") ⟨none, .okp [7]⟩, .method (str! "did:example:h#k") ⟨none, .okp [1, 2, 3]⟩]
  publicKey := none

theorem Ex.whole_shuffled (rules : SelectRules) : WholeIds rules Ex.shuffled := by
  intro l hl id vm hm
  obtain ⟨a, b⟩ := rules
  have hl : l = Ex.shuffled.capabilityDelegation.getD [] ∨ l = [] := by
    cases b <;> simp [listsOf, Ex.shuffled] at hl ⊢ <;> tauto
  rcases hl with rfl | rfl
  · simp only [Ex.shuffled, Option.getD_some, List.mem_cons, DocumentEntry.method.injEq, List.not_mem_nil, or_false] at hm
    rcases hm with ⟨rfl, -⟩ | ⟨rfl, -⟩ | ⟨rfl, -⟩ <;> decide
  · simp at hm

theorem Ex.same_methods (rules : SelectRules) (kid : Str) (vm : Jwk) :
    HasMethod rules Ex.document kid vm ↔ HasMethod rules Ex.shuffled kid vm := by
  rw [hasMethod_whole (Ex.whole_document rules), hasMethod_whole (Ex.whole_shuffled rules)]
  obtain ⟨a, b⟩ := rules
  cases b <;> simp [listsOf, Ex.document, Ex.shuffled] <;> tauto

/-- C126_purpose. -/
example (rules : SelectRules) (kid : Str) :
    evaluateCredentialRequest (withDocuments rules Ex.ext) 1000 Ex.metadata (Ex.requestOf kid)
      (some Ex.pinOffer) none (some Ex.document) Ex.options
    = evaluateCredentialRequest (withDocuments rules Ex.ext) 1000 Ex.metadata (Ex.requestOf kid) (some Ex.pinOffer) none
      (some Ex.shuffled) Ex.options :=
  (C126_purpose rules Ex.ext 1000 Ex.metadata (Ex.requestOf kid) _ _ Ex.document Ex.shuffled _ (Ex.unique_document rules)
    (Ex.same_methods rules)).2

/-- C127_resolved_partial: the document of the DID that pre-evaluation names. -/
example (rules : SelectRules) : preEvaluateCredentialRequest (withDocuments rules Ex.ext) (Ex.requestOf (str! "did:example:h#k"))
    = .ok ⟨some Ex.document.id⟩ := by
  obtain ⟨resp, pop, h1, h2, -⟩ := Ex.evaluates_document rules (str! "did:example:h#k")
    ⟨str! "did:example:h", [], none, some (str! "k")⟩ [1, 2, 3] (by decide +kernel)
    (by obtain ⟨a, b⟩ := rules; cases a <;> cases b <;> rfl)
  have hv : (Ex.requestOf (str! "did:example:h#k")).validate (withDocuments rules Ex.ext) = .ok () :=
    (C19_request _ _).2 fun p hp => by
      cases hp
      exact ⟨(uppercase_eq_iff _).1 (by decide +kernel), ⟨Ex.headerOf (str! "did:example:h#k"), Ex.plainBody,
        some (str! "c2ln")⟩, Ex.fromStr_requestOf (str! "did:example:h#k"), Ex.bound.typ⟩
  rw [C26_pre_succeeds (x := withDocuments rules Ex.ext) (hv := hv) (h := h1), h2]
  rfl

end Oid4vci
