import Verif.Spec.Same
import Verif.Lemmas.Order
import Verif.Props.Order

/-!
C143. The same input gives the same output: the order in which a `HashMap` is iterated, which differs from one
value to the next and from run to run, decides nothing.

Every operation takes the same decision and returns the same values (`C143_offer`, `C143_token`,
`C143_pre_evaluate`, `C143_evaluate`, `C143_response`), and the same values are written as the same document, up
to the order of members (`C143_document_*`). But the text is another one: the offer URL of one and the same offer
and, where members are no longer members but octets, the encoded credential (`C143_refuted`,
`C143_encoded_differs`).
-/

namespace Oid4vci

open Serde Spec

/-! ### Documents -/

theorem sameMembers_append {a b c d : List (Str × Json)} (h : SameMembers a b) (h' : SameMembers c d) :
    SameMembers (a ++ c) (b ++ d) := List.rel_append h h'

theorem sameMembers_skipNone {α : Type} {R : α → α → Prop} {f : α → Json} (k : Str)
    (hf : ∀ a b, R a b → Reordered (f a) (f b)) {o o' : Option α} (h : Option.Rel R o o') :
    SameMembers (skipNone k f o) (skipNone k f o') := by
  cases h with
  | none => exact .nil
  | some h => exact .cons ⟨rfl, hf _ _ h⟩ .nil

theorem reordered_serMap {α : Type} (f : α → Json) (m m' : HMap α) (h : SameMap m m') :
    Reordered (serMap f m) (serMap f m') := .members (h.map _)

theorem reordered_serVec {α : Type} {R : α → α → Prop} {f : α → Json} (hf : ∀ a b, R a b → Reordered (f a) (f b))
    {xs ys : List α} (h : List.Forall₂ R xs ys) : Reordered (serVec f xs) (serVec f ys) := by
  refine reordered_arr ?_
  induction h with
  | nil => exact .nil
  | cons h _ ih => exact .cons (hf _ _ h) ih

theorem reordered_serOpt {α : Type} {R : α → α → Prop} {f : α → Json} (hf : ∀ a b, R a b → Reordered (f a) (f b))
    {o o' : Option α} (h : Option.Rel R o o') : Reordered (serOpt f o) (serOpt f o') := by
  cases h with
  | none => exact .refl _
  | some h => exact hf _ _ h

theorem reordered_context (c c' : LinkedDataContext) (h : SameContext c c') : Reordered c.ser c'.ser := by
  cases c <;> cases c' <;> first | exact absurd h id | skip
  · cases h; exact .refl _
  · exact reordered_serMap id _ _ h

theorem sameMembers_credential (c c' : CredentialFormatProfile) (h : SameCredential c c') :
    SameMembers c.members c'.members := by
  have hc : ∀ (k : Str) {cs cs' : Option (HMap CredentialSubject)} (order : Option (List Str)),
      Option.Rel SameMap cs cs' →
      SameMembers (skipNone k (serMap CredentialSubject.ser) cs ++ skipNone (str! "order") (serVec .str) order)
        (skipNone k (serMap CredentialSubject.ser) cs' ++ skipNone (str! "order") (serVec .str) order) :=
    fun k _ _ order h => sameMembers_append (sameMembers_skipNone k (reordered_serMap _) h) (sameMembers_refl _)
  cases c <;> cases c' <;> first | exact absurd h id | skip
  · obtain ⟨rfl, h, rfl⟩ := h
    exact .cons ⟨rfl, .refl _⟩ (.cons ⟨rfl, .refl _⟩ (hc _ _ h))
  · obtain ⟨rfl, h, rfl⟩ := h
    exact .cons ⟨rfl, .refl _⟩ (.cons ⟨rfl, .refl _⟩ (hc _ _ h))
  · obtain ⟨h', rfl, h, rfl⟩ := h
    exact .cons ⟨rfl, .refl _⟩ (.cons ⟨rfl, reordered_serVec reordered_context h'⟩
      (.cons ⟨rfl, .refl _⟩ (hc _ _ h)))
  · obtain ⟨rfl, h, rfl⟩ := h
    exact .cons ⟨rfl, .refl _⟩ (.cons ⟨rfl, .refl _⟩ (hc _ _ h))

theorem ser_members (c : CredentialFormatProfile) : c.ser = .obj c.members := by cases c <;> rfl

/-- C143. The same credential is written as the same document. -/
theorem C143_document_credential (c c' : CredentialFormatProfile) (h : SameCredential c c') :
    Reordered c.ser c'.ser := by
  rw [ser_members, ser_members]
  exact reordered_obj (sameMembers_credential c c' h)

theorem reordered_entry (c c' : CredentialOrId) (h : SameEntry c c') : Reordered c.ser c'.ser := by
  cases c <;> cases c' <;> first | exact absurd h id | skip
  · cases h; exact .refl _
  · exact C143_document_credential _ _ h

/-- C143. The same offer is written as the same document. -/
theorem C143_document_offer (o o' : CredentialOffer) (h : SameOffer o o') : Reordered o.ser o'.ser := by
  obtain ⟨h1, h2, h3⟩ := h
  unfold CredentialOffer.ser
  rw [h1, h3]
  exact reordered_obj (.cons ⟨rfl, .refl _⟩ (.cons ⟨rfl, reordered_serVec reordered_entry h2⟩
    (.cons ⟨rfl, .refl _⟩ .nil)))

/-- C143. The same request is written as the same document. -/
theorem C143_document_request (r r' : CredentialRequest) (h : SameRequest r r') : Reordered r.ser r'.ser := by
  obtain ⟨h1, h2⟩ := h
  unfold CredentialRequest.ser
  rw [h2]
  exact reordered_obj (sameMembers_append (sameMembers_credential _ _ h1) (sameMembers_refl _))

theorem reordered_supported (c c' : CredentialSupported) (h : SameSupported c c') : Reordered c.ser c'.ser := by
  obtain ⟨h1, h2, h3, h4, h5⟩ := h
  unfold CredentialSupported.ser
  rw [h2, h3, h4, h5]
  exact reordered_obj (sameMembers_append (sameMembers_credential _ _ h1) (sameMembers_refl _))

/-- C143. The same metadata are written as the same document. -/
theorem C143_document_metadata (m m' : CredentialIssuerMetadata) (h : SameIssuerMetadata m m') :
    Reordered m.ser m'.ser := by
  obtain ⟨h1, h2, h3, h4, h5, h6⟩ := h
  unfold CredentialIssuerMetadata.ser
  rw [h1, h2, h3, h4]
  have hp : (m.additionalFields.getD []).Perm (m'.additionalFields.getD []) := by
    revert h6
    generalize m.additionalFields = a, m'.additionalFields = b
    intro h6
    cases h6 with
    | none => exact .refl _
    | some h => exact h
  refine .trans (.members (hp.append_left _)) (reordered_obj (sameMembers_append ?_ (sameMembers_refl _)))
  exact .cons ⟨rfl, .refl _⟩ (.cons ⟨rfl, .refl _⟩ (.cons ⟨rfl, .refl _⟩ (.cons ⟨rfl, .refl _⟩
    (.cons ⟨rfl, reordered_serVec reordered_supported h5⟩ .nil))))

/-- C143. The same response is written as the same document. -/
theorem C143_document_response (r r' : CredentialSuccessResponse) (h : SameResponse r r') :
    Reordered r.ser r'.ser := by
  obtain ⟨h1, h2, h3, h4, h5⟩ := h
  unfold CredentialSuccessResponse.ser
  rw [h1, h3, h4, h5]
  refine reordered_obj (.cons ⟨rfl, .refl _⟩ (.cons ⟨rfl, reordered_serOpt ?_ h2⟩ (sameMembers_refl _)))
  intro c c' h
  cases c <;> cases c' <;> first | exact absurd h id | skip
  · exact .value [] [] _ (C143_document_credential _ _ h)
  · cases h; exact .refl _

/-! ### Operations -/

theorem sameOutcome_bind {ε α β : Type} {R : α → α → Prop} {S : β → β → Prop} {p p' : Res ε α}
    {f f' : α → Res ε β} (h : SameOutcome R p p') (hf : ∀ a b, R a b → SameOutcome S (f a) (f' b)) :
    SameOutcome S (p >>= f) (p' >>= f') := by
  cases p <;> cases p' <;> first | exact absurd h id | skip
  · exact hf _ _ h
  · exact h
  · trivial

theorem sameOutcome_refl {ε α : Type} {R : α → α → Prop} (hR : ∀ a, R a a) (p : Res ε α) : SameOutcome R p p := by
  cases p
  · exact hR _
  · rfl
  · trivial

theorem sameOutcome_bind_eq {ε α β : Type} {S : β → β → Prop} {p : Res ε α} {f f' : α → Res ε β}
    (hf : ∀ a, SameOutcome S (f a) (f' a)) : SameOutcome S (p >>= f) (p >>= f') := by
  cases p
  · exact hf _
  · rfl
  · trivial

theorem same_idsUnique {cs cs' : List CredentialSupported} (h : List.Forall₂ SameSupported cs cs')
    (seen : List Str) : idsUnique seen cs = idsUnique seen cs' := by
  induction h generalizing seen with
  | nil => rfl
  | cons h _ ih =>
    simp only [idsUnique, h.2.1]
    split
    · split
      · rfl
      · exact ih _
    · exact ih _

theorem same_validate {m m' : CredentialIssuerMetadata} (h : SameIssuerMetadata m m') : m.validate = m'.validate := by
  obtain ⟨-, -, -, -, h, -⟩ := h
  unfold CredentialIssuerMetadata.validate
  rw [same_idsUnique h]
  have : validateAll CredentialSupported.validate m.credentialsSupported =
      validateAll CredentialSupported.validate m'.credentialsSupported := by
    revert h
    generalize m.credentialsSupported = a, m'.credentialsSupported = b
    intro h
    induction h with
    | nil => rfl
    | cons h _ ih =>
      simp only [validateAll, ih, CredentialSupported.validate, h.2.2.2.2, CredentialFormatProfile.validate]
  rw [this]

theorem same_find {cs cs' : List CredentialSupported} (h : List.Forall₂ SameSupported cs cs') (s : Str) :
    Option.Rel SameSupported (cs.find? fun c => decide (c.id = some s))
      (cs'.find? fun c => decide (c.id = some s)) := by
  induction h with
  | nil => exact .none
  | cons h _ ih =>
    simp only [List.find?_cons, h.2.1]
    split
    · exact .some h
    · exact ih

theorem same_resolve {m m' : CredentialIssuerMetadata} (h : SameIssuerMetadata m m') {c c' : CredentialOrId}
    (hc : SameEntry c c') : SameOutcome SameCredential (c.resolve m) (c'.resolve m') := by
  cases c <;> cases c' <;> first | exact absurd hc id | skip
  · cases hc
    rename_i s
    have hf := same_find h.2.2.2.2.1 s
    simp only [CredentialOrId.resolve]
    revert hf
    generalize List.find? _ m.credentialsSupported = a, List.find? _ m'.credentialsSupported = b
    intro hf
    cases hf with
    | none => rfl
    | some hf => exact hf.1
  · exact hc

theorem same_resolveAll {m m' : CredentialIssuerMetadata} (h : SameIssuerMetadata m m') {cs cs' : CredentialOrIds}
    (hc : List.Forall₂ SameEntry cs cs') :
    SameOutcome (List.Forall₂ SameCredential) (CredentialOrIds.resolveAll m cs) (CredentialOrIds.resolveAll m' cs') := by
  induction hc with
  | nil => exact .nil
  | cons hc _ ih =>
    refine sameOutcome_bind (same_resolve h hc) fun _ _ hf => ?_
    exact sameOutcome_bind ih fun _ _ hfs => .cons hf hfs

/-- C143. Offers: the same offer, in a URL with the same prefix and the same document. -/
theorem C143_offer {m m' : CredentialIssuerMetadata} (h : SameIssuerMetadata m m') {cs cs' : CredentialOrIds}
    (hc : List.Forall₂ SameEntry cs cs') (endpoint : Option Str) (a : Option AuthorizedCodeFlow)
    (p : Option PreAuthorizedCodeFlow) :
    SameOutcome (fun r r' => SameOffer r.1 r'.1 ∧ ∃ front j j', Reordered j j' ∧
        r.2 = front ++ urlencode j.print ∧ r'.2 = front ++ urlencode j'.print)
      (CredentialIssuer.createOffer m cs endpoint a p) (CredentialIssuer.createOffer m' cs' endpoint a p) := by
  unfold CredentialIssuer.createOffer
  rw [same_validate h]
  refine sameOutcome_bind_eq fun _ => ?_
  split
  · rfl
  · refine sameOutcome_bind (same_resolveAll h hc) fun _ _ _ => ?_
    have ho : SameOffer (.new m.credentialIssuer cs a p) (.new m'.credentialIssuer cs' a p) := ⟨h.1, hc, rfl⟩
    exact ⟨ho, _, _, _, C143_document_offer _ _ ho, rfl, rfl⟩

/-- C143. Token requests: the same answer. -/
theorem C143_token (r : AccessTokenRequest) {offer offer' : Option CredentialOffer}
    (h : Option.Rel SameOffer offer offer') (options : Option EvaluateAccessTokenRequestOptions) :
    AccessToken.evaluateAccessTokenRequest r offer options = AccessToken.evaluateAccessTokenRequest r offer' options := by
  cases h with
  | none => rfl
  | some h =>
    unfold AccessToken.evaluateAccessTokenRequest
    simp only [h.2.2]

/-- C143. Pre-evaluation: the same answer. -/
theorem C143_pre_evaluate (x : Ext) {r r' : CredentialRequest} (h : SameRequest r r') :
    CredentialIssuer.preEvaluateCredentialRequest x r = CredentialIssuer.preEvaluateCredentialRequest x r' := by
  unfold CredentialIssuer.preEvaluateCredentialRequest CredentialRequest.validate
  simp only [h.2]

/-- C143. Credential requests: the same answer. -/
theorem C143_evaluate (x : Ext) (now : Time) {m m' : CredentialIssuerMetadata} (hm : SameIssuerMetadata m m')
    {r r' : CredentialRequest} (hr : SameRequest r r') {offer offer' : Option CredentialOffer}
    (ho : Option.Rel SameOffer offer offer') (asm : Option AuthorizationServerMetadata) (doc : Option x.Doc)
    (options : Option EvaluateCredentialRequestOptions) :
    SameOutcome SameAnswer
      (CredentialIssuer.evaluateCredentialRequest x now m r offer asm doc options)
      (CredentialIssuer.evaluateCredentialRequest x now m' r' offer' asm doc options) := by
  unfold CredentialIssuer.evaluateCredentialRequest
  rw [same_validate hm]
  refine sameOutcome_bind_eq fun _ => ?_
  refine sameOutcome_bind (R := SameOffer) ?_ fun o o' ho => ?_
  · cases ho with
    | none => rfl
    | some ho => exact ho
  refine sameOutcome_bind (R := fun _ _ => True) (by exact trivial) fun _ _ _ => ?_
  split
  · refine sameOutcome_bind_eq fun _ => ?_
    rfl
  · refine sameOutcome_bind_eq fun _ => ?_
    have hs : CredentialIssuer.shouldValidateIss options o = CredentialIssuer.shouldValidateIss options o' := by
      unfold CredentialIssuer.shouldValidateIss
      rw [ho.2.2]
    rw [hr.2, hs, hm.1]
    split
    · refine sameOutcome_bind_eq fun jwt => ?_
      refine sameOutcome_bind_eq fun _ => ?_
      refine sameOutcome_bind_eq fun _ => ?_
      split
      all_goals
        refine sameOutcome_bind_eq fun _ => ?_
        refine sameOutcome_bind_eq fun _ => ?_
        refine sameOutcome_bind_eq fun _ => ?_
        refine sameOutcome_bind_eq fun _ => ?_
        refine sameOutcome_bind_eq fun _ => ?_
        refine sameOutcome_bind_eq fun _ => ?_
        exact ⟨rfl, rfl, hr.1⟩
    · rfl

/-- What a response carries: the same credential, the same token, or the octets of the same document. -/
def SameCarried (c c' : Option CredentialFormatProfileOrEncoded) : Prop :=
  Option.Rel SameIssued c c' ∨ ∃ j j' : Json, Reordered j j' ∧
    c = some (.encoded (base64urlEncode (utf8Encode j.print))) ∧
    c' = some (.encoded (base64urlEncode (utf8Encode j'.print)))

theorem same_formatName {c c' : CredentialFormatProfile} (h : SameCredential c c') :
    c.getFormatName = c'.getFormatName := by
  cases c <;> cases c' <;> first | exact absurd h id | rfl

/-- C143. Success responses: the same but for the octets of encoded credentials. -/
theorem C143_response (x : Ext) (now : Time) {r r' : CredentialRequest} (hr : SameRequest r r')
    {c c' : Option CredentialOrAcceptanceToken} (hc : Option.Rel SameIssue c c') (nonce : Option CNonce) :
    SameOutcome (fun p p' => p.2 = p'.2 ∧ p.1.format = p'.1.format ∧ SameCarried p.1.credential p'.1.credential ∧
        p.1.acceptanceToken = p'.1.acceptanceToken ∧ p.1.cNonce = p'.1.cNonce ∧
        p.1.cNonceExpiresIn = p'.1.cNonceExpiresIn)
      (CredentialIssuer.createCredentialSuccessResponse x now r c nonce)
      (CredentialIssuer.createCredentialSuccessResponse x now r' c' nonce) := by
  unfold CredentialIssuer.createCredentialSuccessResponse
  have hv : r.validate x = r'.validate x := by
    unfold CredentialRequest.validate
    rw [hr.2]
  rw [hv, same_formatName hr.1]
  refine sameOutcome_bind_eq fun _ => ?_
  cases hc with
  | none => cases nonce <;> exact ⟨rfl, rfl, .inl .none, rfl, rfl, rfl⟩
  | some hc =>
    rename_i d d'
    cases d <;> cases d' <;> first | exact absurd hc id | skip
    · rename_i d d'
      have hj := C143_document_credential d d' hc
      cases d <;> cases d' <;> first | exact absurd hc id | skip
      · cases nonce <;> exact ⟨rfl, rfl, .inr ⟨_, _, hj, rfl, rfl⟩, rfl, rfl, rfl⟩
      · cases nonce <;> exact ⟨rfl, rfl, .inr ⟨_, _, hj, rfl, rfl⟩, rfl, rfl, rfl⟩
      · cases nonce <;> exact ⟨rfl, rfl, .inl (.some hc), rfl, rfl, rfl⟩
      · cases nonce <;> exact ⟨rfl, rfl, .inr ⟨_, _, hj, rfl, rfl⟩, rfl, rfl, rfl⟩
    · cases hc
      cases nonce <;> exact ⟨rfl, rfl, .inl .none, rfl, rfl, rfl⟩

/-! ### Texts -/

/-- **Claim C143**, in full: the same metadata and credentials give the same offer URL, and the same credential
the same success response. -/
def C143_statement : Prop :=
  (∀ (m m' : CredentialIssuerMetadata) (cs cs' : CredentialOrIds) (endpoint : Option Str)
      (p : Option PreAuthorizedCodeFlow), SameIssuerMetadata m m' → List.Forall₂ SameEntry cs cs' →
    SameOutcome (fun r r' => r.2 = r'.2) (CredentialIssuer.createOffer m cs endpoint none p)
      (CredentialIssuer.createOffer m' cs' endpoint none p)) ∧
  (∀ (x : Ext) (now : Time) (r r' : CredentialRequest) (c c' : CredentialFormatProfile) (nonce : Option CNonce),
    SameRequest r r' → SameCredential c c' →
    SameOutcome (fun p p' => SameResponse p.1 p'.1)
      (CredentialIssuer.createCredentialSuccessResponse x now r (some (.credential c)) nonce)
      (CredentialIssuer.createCredentialSuccessResponse x now r' (some (.credential c')) nonce))

theorem Single.perm {α : Type} {m m' : HMap α} (h : Single m) (hp : SameMap m m') : m = m' := by
  match m, h with
  | [], _ => exact (List.nil_perm.1 hp).symm
  | [a], _ => exact (List.singleton_perm.1 hp)

theorem single_option {cs cs' : Option (HMap CredentialSubject)} (h : ∀ m ∈ cs, Single m)
    (hp : Option.Rel SameMap cs cs') : cs = cs' := by
  cases hp with
  | none => rfl
  | some hp => rw [Single.perm (h _ rfl) hp]

theorem single_credential {c c' : CredentialFormatProfile} (h : SingleCredential c) (hc : SameCredential c c') :
    c = c' := by
  cases c <;> cases c' <;> first | exact absurd hc id | skip
  · obtain ⟨rfl, hc, rfl⟩ := hc
    rw [single_option h hc]
  · obtain ⟨rfl, hc, rfl⟩ := hc
    rw [single_option h hc]
  · obtain ⟨hx, rfl, hc, rfl⟩ := hc
    rw [single_option h.2 hc]
    congr 1
    have h1 := h.1
    clear h
    induction hx with
    | nil => rfl
    | cons ha _ ih =>
      rw [ih fun m hm => h1 m (List.mem_cons_of_mem _ hm)]
      congr 1
      rename_i a b _ _ _
      cases a <;> cases b <;> first | exact absurd ha id | skip
      · cases ha; rfl
      · rw [Single.perm (h1 _ (by simp)) ha]
  · obtain ⟨rfl, hc, rfl⟩ := hc
    rw [single_option h hc]

theorem single_entries {cs cs' : CredentialOrIds} (h : SingleEntries cs) (hc : List.Forall₂ SameEntry cs cs') :
    cs = cs' := by
  induction hc with
  | nil => rfl
  | cons ha _ ih =>
    rw [ih fun c hm => h c (List.mem_cons_of_mem _ hm)]
    congr 1
    rename_i a b _ _ _
    cases a <;> cases b <;> first | exact absurd ha id | skip
    · cases ha; rfl
    · rw [single_credential (h _ (by simp)) ha]

/-- The same offer and the same URL, as long as no map of the offered credentials has two entries. **Missing:**
maps with more of them (`C143_refuted`). -/
theorem C143_url_partial {m m' : CredentialIssuerMetadata} (h : SameIssuerMetadata m m') {cs cs' : CredentialOrIds}
    (hc : List.Forall₂ SameEntry cs cs') (hs : SingleEntries cs) (endpoint : Option Str)
    (a : Option AuthorizedCodeFlow) (p : Option PreAuthorizedCodeFlow) :
    SameOutcome (· = ·) (CredentialIssuer.createOffer m cs endpoint a p)
      (CredentialIssuer.createOffer m' cs' endpoint a p) := by
  cases single_entries hs hc
  unfold CredentialIssuer.createOffer
  rw [same_validate h, h.1]
  refine sameOutcome_bind_eq fun _ => ?_
  split
  · rfl
  · exact sameOutcome_bind (same_resolveAll h hc) fun _ _ _ => rfl

/-- The same response, as long as no map of the issued credential has two entries. **Missing:** maps with more
of them (`C143_encoded_differs`). -/
theorem C143_response_partial (x : Ext) (now : Time) {r r' : CredentialRequest} (hr : SameRequest r r')
    {c c' : CredentialFormatProfile} (hc : SameCredential c c') (hs : SingleCredential c) (nonce : Option CNonce) :
    CredentialIssuer.createCredentialSuccessResponse x now r (some (.credential c)) nonce =
      CredentialIssuer.createCredentialSuccessResponse x now r' (some (.credential c')) nonce := by
  cases single_credential hs hc
  unfold CredentialIssuer.createCredentialSuccessResponse CredentialRequest.validate
  rw [hr.2, same_formatName hr.1]

namespace Ex

/-- A credential with two claims, … -/
def twoClaims : CredentialFormatProfile :=
  .msoMdoc (str! "d") (some [(str! "a", ⟨none, none, none⟩), (str! "b", ⟨none, none, none⟩)]) none

/-- … and the same one, iterated the other way. -/
def twoClaims' : CredentialFormatProfile :=
  .msoMdoc (str! "d") (some [(str! "b", ⟨none, none, none⟩), (str! "a", ⟨none, none, none⟩)]) none

theorem same_twoClaims : SameCredential twoClaims twoClaims' := ⟨rfl, .some (.swap _ _ _), rfl⟩

end Ex

/-- One credential, two URLs. -/
theorem C143_urls_differ :
    (CredentialIssuer.createOffer .default [.credential Ex.twoClaims] none none none).isOk ∧
    ∀ o u o' u', CredentialIssuer.createOffer .default [.credential Ex.twoClaims] none none none = .ok (o, u) →
      CredentialIssuer.createOffer .default [.credential Ex.twoClaims'] none none none = .ok (o', u') → u ≠ u' := by
  refine ⟨by decide +kernel, ?_⟩
  intro o u o' u' h h'
  cases h
  cases h'
  decide +kernel

/-- One credential, two encodings. -/
theorem C143_encoded_differs :
    CredentialFormatProfileOrEncoded.tryFrom Ex.twoClaims ≠ CredentialFormatProfileOrEncoded.tryFrom Ex.twoClaims' := by
  decide +kernel

/-- **The code violates C143.** -/
theorem C143_refuted : ¬ C143_statement := by
  intro h
  have h1 := h.1 .default .default [.credential Ex.twoClaims] [.credential Ex.twoClaims'] none none
    ⟨rfl, rfl, rfl, rfl, .nil, .none⟩ (.cons Ex.same_twoClaims .nil)
  obtain ⟨hok, h2⟩ := C143_urls_differ
  cases ha : CredentialIssuer.createOffer .default [.credential Ex.twoClaims] none none none with
  | ok r =>
    rw [ha] at h1
    cases hb : CredentialIssuer.createOffer .default [.credential Ex.twoClaims'] none none none with
    | ok r' =>
      rw [hb] at h1
      exact h2 r.1 r.2 r'.1 r'.2 ha hb h1
    | err e => rw [hb] at h1; exact h1
    | panic => rw [hb] at h1; exact h1
  | err e => rw [ha] at hok; cases hok
  | panic => rw [ha] at hok; cases hok

/-! ### Cases -/

namespace Ex

/-- The offers in the two URLs are the same. -/
example : SameOutcome (fun r r' => SameOffer r.1 r'.1 ∧ ∃ front j j', Reordered j j' ∧
        r.2 = front ++ urlencode j.print ∧ r'.2 = front ++ urlencode j'.print)
      (CredentialIssuer.createOffer .default [.credential twoClaims] none none none)
      (CredentialIssuer.createOffer .default [.credential twoClaims'] none none none) :=
  C143_offer (cs := [.credential twoClaims]) (cs' := [.credential twoClaims']) ⟨rfl, rfl, rfl, rfl, .nil, .none⟩
    (.cons (show SameEntry (.credential twoClaims) (.credential twoClaims') from same_twoClaims) .nil) none none none

/-- A credential with one claim is offered in one URL only. -/
example : SingleEntries [.credentialId (str! "i"), .credential (.msoMdoc (str! "d")
    (some [(str! "a", ⟨none, none, none⟩)]) none)] := by
  intro c hc
  simp only [List.mem_cons, List.not_mem_nil, or_false, reduceCtorEq, false_or, CredentialOrId.credential.injEq] at hc
  subst hc
  intro m hm
  cases hm
  exact le_refl 1

/-- Requests for the two, which are not equal as lists of entries, are the same. -/
example (p : Option CredentialRequestProof) : SameRequest ⟨twoClaims, p⟩ ⟨twoClaims', p⟩ ∧
    (⟨twoClaims, p⟩ : CredentialRequest) ≠ ⟨twoClaims', p⟩ :=
  ⟨⟨same_twoClaims, rfl⟩, fun h => absurd (congrArg CredentialRequest.format h) (show twoClaims ≠ twoClaims' by decide +kernel)⟩

end Ex

end Oid4vci
