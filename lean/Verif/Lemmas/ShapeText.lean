import Verif.Lemmas.Shapes

/-! What the types read from texts, in particular from what is written. -/

namespace Oid4vci
namespace Json

open Spec Serde

/-! ### Any text -/

theorem read_text {α : Type} {σ : Shape} {d : De α} (hf : Follows σ d) {w : Json} {s : Str} (h : JsonText w s) :
    (see σ s).bind d = if depth (blank σ w) ≤ maxDepth then d w else none := by
  rw [see_text σ h]
  split
  · rw [Option.bind_some, hf w]
  · rfl

/-- A text that can be read completely is read as before. -/
theorem read_parse {α : Type} {σ : Shape} {d : De α} (hf : Follows σ d) {w : Json} {s : Str}
    (h : parse s = some w) : (see σ s).bind d = d w := by
  rw [see_parse σ h, Option.bind_some, hf w]

/-! ### Printed documents -/

/-- Printed text denotes the settled document, however deep it is. -/
theorem print_text (v : Json) (h : RustNumbers v) : JsonText (settle v) v.print := by
  have h1 := parseValue_reread v h (depth v) (v.print.length) [] (Nat.le_refl _) (Nat.le_refl _)
    (fun _ => by intro c hc; simp at hc)
  rw [reread_settle v h, List.append_nil] at h1
  obtain ⟨u, t, hu, ht, e, -⟩ := (parse_sound_aux _ _).1 _ _ _ h1
  exact ⟨u, t, [], hu, ht, (by intro c hc; simp at hc), e⟩

mutual
theorem blank_settle : ∀ (σ : Shape) (v : Json), blank σ (settle v) = settle (blank σ v)
  | _, null | _, bool _ | _, num _ | _, float _ | _, str _ => rfl
  | σ, arr xs => by rw [settle, blank, blank, settle, blank_settleList]
  | σ, obj kvs => by rw [settle, blank, blank, settle, blank_settleMembers]
theorem blank_settleList : ∀ (σ : Shape) (i : Nat) (xs : List Json),
    blankList σ i (settleList xs) = settleList (blankList σ i xs)
  | _, _, [] => rfl
  | σ, i, x :: xs => by
    rw [settleList, blankList, blankList, settleList, blank_settle, blank_settleList]
theorem blank_settleMembers : ∀ (σ : Shape) (kvs : List (Str × Json)),
    blankMembers σ (settleMembers kvs) = settleMembers (blankMembers σ kvs)
  | _, [] => rfl
  | σ, (k, v) :: kvs => by
    have : blankMember σ k (settle v) = settle (blankMember σ k v) := by
      unfold blankMember
      cases σ.member k with
      | none => rfl
      | some τ => exact blank_settle τ v
    rw [settleMembers, blankMembers_cons, blankMembers_cons, settleMembers, blank_settleMembers, this]
end

/-- A document without anything to skip is seen as it is read. -/
theorem see_print {σ : Shape} {v : Json} (h : RustNumbers v) (hb : blank σ v = v) :
    see σ v.print = parse v.print :=
  see_eq_parse σ (print_text v h) (by rw [blank_settle, hb])

/-! ### Nothing written is skipped -/

theorem blankMembers_struct {fs : List (Str × Shape)} {kvs : List (Str × Json)}
    (h : ∀ p ∈ kvs, ∃ τ, fs.lookup p.1 = some τ ∧ blank τ p.2 = p.2) : blankMembers (.struct fs) kvs = kvs := by
  induction kvs with
  | nil => rfl
  | cons p kvs ih =>
    obtain ⟨k, v⟩ := p
    obtain ⟨τ, h1, h2⟩ := h (k, v) (by simp)
    rw [blankMembers_cons, ih fun q hq => h q (List.mem_cons_of_mem _ hq)]
    simp only [blankMember, Shape.member, h1]
    exact congrArg (fun x => (k, x) :: kvs) h2

theorem blankMembers_flat {fs : List (Str × Shape)} {kvs : List (Str × Json)}
    (h : ∀ p ∈ kvs, ∀ τ, fs.lookup p.1 = some τ → blank τ p.2 = p.2) : blankMembers (.flat fs) kvs = kvs := by
  induction kvs with
  | nil => rfl
  | cons p kvs ih =>
    obtain ⟨k, v⟩ := p
    have h1 := h (k, v) (by simp)
    rw [blankMembers_cons, ih fun q hq => h q (List.mem_cons_of_mem _ hq)]
    have : blankMember (.flat fs) k v = v := by
      simp only [blankMember, Shape.member]
      cases hl : fs.lookup k with
      | none => exact blank_any v
      | some τ => exact h1 τ hl
    rw [this]

theorem blank_serOpt {α : Type} {σ : Shape} {f : α → Json} (h : ∀ a, blank σ (f a) = f a) (o : Option α) :
    blank σ (serOpt f o) = serOpt f o := by
  cases o with
  | none => rfl
  | some a => exact h a

theorem blank_serVec {α : Type} {σ : Shape} {f : α → Json} {xs : List α} (h : ∀ a ∈ xs, blank σ (f a) = f a) :
    blank (.vec σ) (serVec f xs) = serVec f xs := by
  unfold serVec
  rw [blank]
  congr 1
  suffices ∀ i, blankList (.vec σ) i (xs.map f) = xs.map f from this 0
  induction xs with
  | nil => intro i; rfl
  | cons x xs ih =>
    intro i
    rw [List.map_cons, blankList, ih (fun a ha => h a (List.mem_cons_of_mem _ ha))]
    exact congrArg (· :: _) (h x (by simp))

end Json

open Json Serde Spec

theorem AuthorizedCodeFlow.blank_ser (a : AuthorizedCodeFlow) : blank shape a.ser = a.ser := by
  unfold ser shape
  rw [blank, blankMembers_struct]
  intro p hp
  simp only [List.mem_cons, List.not_mem_nil, or_false] at hp
  rcases hp with rfl
  · exact ⟨_, rfl, blank_any _⟩

theorem PreAuthorizedCodeFlow.blank_ser (p : PreAuthorizedCodeFlow) : blank shape p.ser = p.ser := by
  obtain ⟨code, pin⟩ := p
  unfold ser shape
  rw [blank, blankMembers_struct]
  intro p hp
  cases pin with
  | none =>
    simp only [skipNone, List.mem_cons, List.not_mem_nil, or_false] at hp
    subst hp
    exact ⟨_, rfl, blank_any _⟩
  | some pin =>
    simp only [skipNone, List.mem_cons, List.not_mem_nil, or_false] at hp
    rcases hp with rfl | rfl
    · exact ⟨_, rfl, blank_any _⟩
    · exact ⟨_, rfl, blank_any _⟩

theorem CredentialOfferGrants.blank_ser (g : CredentialOfferGrants) : blank shape g.ser = g.ser := by
  obtain ⟨a, c⟩ := g
  unfold ser shape
  rw [blank, blankMembers_struct]
  intro p hp
  rcases List.mem_append.1 hp with hp | hp
  · cases a with
    | none => cases hp
    | some a =>
      simp only [skipNone, List.mem_cons, List.not_mem_nil, or_false] at hp
      subst hp
      exact ⟨_, rfl, a.blank_ser⟩
  · cases c with
    | none => cases hp
    | some c =>
      simp only [skipNone, List.mem_cons, List.not_mem_nil, or_false] at hp
      subst hp
      exact ⟨_, rfl, c.blank_ser⟩

theorem CredentialOffer.blank_ser (o : CredentialOffer) : blank shape o.ser = o.ser := by
  unfold ser shape
  rw [blank, blankMembers_struct]
  intro p hp
  simp only [List.mem_cons, List.not_mem_nil, or_false] at hp
  rcases hp with rfl | rfl | rfl
  · exact ⟨_, rfl, blank_any _⟩
  · exact ⟨_, rfl, blank_serVec fun _ _ => blank_any _⟩
  · exact ⟨_, rfl, o.grants.blank_ser⟩

theorem CredentialSuccessResponse.blank_ser (r : CredentialSuccessResponse) : blank shape r.ser = r.ser := by
  unfold ser shape
  rw [blank, blankMembers_struct]
  intro p hp
  simp only [List.mem_cons, List.not_mem_nil, or_false] at hp
  rcases hp with rfl | rfl | rfl | rfl | rfl
  · exact ⟨_, rfl, blank_any _⟩
  · exact ⟨_, rfl, blank_any _⟩
  · exact ⟨_, rfl, blank_any _⟩
  · exact ⟨_, rfl, blank_any _⟩
  · exact ⟨_, rfl, blank_any _⟩

theorem AccessTokenSuccessResponse.blank_ser (r : AccessTokenSuccessResponse) : blank shape r.ser = r.ser := by
  unfold ser shape
  rw [blank, blankMembers_struct]
  intro p hp
  simp only [List.mem_cons, List.not_mem_nil, or_false] at hp
  rcases hp with rfl | rfl | rfl | rfl | rfl | rfl | rfl | rfl
  · exact ⟨_, rfl, blank_any _⟩
  · exact ⟨_, rfl, blank_any _⟩
  · exact ⟨_, rfl, blank_any _⟩
  · exact ⟨_, rfl, blank_any _⟩
  · exact ⟨_, rfl, blank_any _⟩
  · exact ⟨_, rfl, blank_any _⟩
  · exact ⟨_, rfl, blank_any _⟩
  · exact ⟨_, rfl, blank_any _⟩

theorem AccessTokenRequest.blank_ser (r : AccessTokenRequest) : blank shape r.ser = r.ser := by
  unfold ser shape
  rw [blank, blankMembers_struct]
  intro p hp
  simp only [List.mem_cons, List.not_mem_nil, or_false] at hp
  rcases hp with rfl
  · exact ⟨_, rfl, blank_any _⟩

theorem DisplayLogo.blank_ser (l : DisplayLogo) : blank shape l.ser = l.ser := by
  unfold ser shape
  rw [blank, blankMembers_struct]
  intro p hp
  simp only [List.mem_cons, List.not_mem_nil, or_false] at hp
  rcases hp with rfl | rfl
  · exact ⟨_, rfl, blank_any _⟩
  · exact ⟨_, rfl, blank_any _⟩

theorem DisplayProperties.blank_ser (d : DisplayProperties) : blank shape d.ser = d.ser := by
  unfold ser shape
  rw [blank, blankMembers_struct]
  intro p hp
  simp only [List.mem_cons, List.not_mem_nil, or_false] at hp
  rcases hp with rfl | rfl | rfl | rfl | rfl | rfl
  · exact ⟨_, rfl, blank_any _⟩
  · exact ⟨_, rfl, blank_any _⟩
  · exact ⟨_, rfl, blank_serOpt DisplayLogo.blank_ser _⟩
  · exact ⟨_, rfl, blank_any _⟩
  · exact ⟨_, rfl, blank_any _⟩
  · exact ⟨_, rfl, blank_any _⟩

/-- Where the named members of a credential come from. -/
theorem CredentialFormatProfile.members_keys (c : CredentialFormatProfile) :
    ∀ p ∈ c.members, p.1 ∉ [str! "proof", str! "id", str! "cryptographic_binding_mehtods_supported",
      str! "cryptographic_suites_supported", str! "display"] := by
  intro p hp
  cases c with
  | jwtVcJson types cs order | jwtVcJsonLd types cs order | ldpVc context types cs order
    | msoMdoc doctype cs order =>
    cases cs <;> cases order <;>
      simp only [members, ser, skipNone, List.nil_append, List.cons_append, List.append_nil, List.mem_cons,
        List.not_mem_nil, or_false] at hp <;>
      (repeat' rcases hp with hp | hp) <;> dsimp only <;> decide

theorem CredentialSupported.blank_ser (c : CredentialSupported) : blank shape c.ser = c.ser := by
  unfold ser shape
  rw [blank, blankMembers_flat]
  intro p hp τ hτ
  rcases List.mem_append.1 hp with hp | hp
  · rw [lookup_none fun hm => c.format.members_keys p hp (List.mem_cons_of_mem _ hm)] at hτ
    cases hτ
  · simp only [List.mem_cons, List.not_mem_nil, or_false] at hp
    rcases hp with rfl | rfl | rfl | rfl
    · cases hτ; exact blank_any _
    · cases hτ; exact blank_any _
    · cases hτ; exact blank_any _
    · cases hτ; exact blank_serOpt (fun ds => blank_serVec fun d _ => d.blank_ser) _

theorem CredentialIssuerMetadata.blank_ser (m : CredentialIssuerMetadata)
    (h : ∀ a ∈ m.additionalFields, ∀ p ∈ a, p.1 ∉ metadataFields) : blank shape m.ser = m.ser := by
  unfold ser shape
  rw [blank, blankMembers_flat]
  intro p hp τ hτ
  rcases List.mem_append.1 hp with hp | hp
  · simp only [List.mem_cons, List.not_mem_nil, or_false] at hp
    rcases hp with rfl | rfl | rfl | rfl | rfl
    · cases hτ; exact blank_any _
    · cases hτ; exact blank_any _
    · cases hτ; exact blank_any _
    · cases hτ; exact blank_any _
    · cases hτ; exact blank_serVec fun c _ => c.blank_ser
  · cases ha : m.additionalFields with
    | none => rw [ha] at hp; cases hp
    | some a =>
      rw [ha] at hp
      rw [lookup_none (h a ha p hp)] at hτ
      cases hτ

theorem CredentialRequestProof.blank_ser (q : CredentialRequestProof) : blank shape q.ser = q.ser := by
  unfold ser shape
  rw [blank, blankMembers_struct]
  intro p hp
  simp only [List.mem_cons, List.not_mem_nil, or_false] at hp
  rcases hp with rfl | rfl
  · exact ⟨_, rfl, blank_any _⟩
  · exact ⟨_, rfl, blank_any _⟩

theorem CredentialRequest.blank_ser (r : CredentialRequest) : blank shape r.ser = r.ser := by
  unfold ser shape
  rw [blank, blankMembers_flat]
  intro p hp τ hτ
  rcases List.mem_append.1 hp with hp | hp
  · rw [lookup_none fun hm => r.format.members_keys p hp (by
      simp only [List.map_cons, List.map_nil, List.mem_singleton] at hm; rw [hm]; simp)] at hτ
    cases hτ
  · simp only [List.mem_cons, List.not_mem_nil, or_false] at hp
    subst hp
    cases hτ
    exact blank_serOpt CredentialRequestProof.blank_ser _

theorem CNonceOptions.blank_ser (x : Ext) (o : CNonceOptions) : blank shape (o.ser x) = o.ser x := by
  unfold ser shape
  rw [blank, blankMembers_struct]
  intro p hp
  simp only [List.mem_cons, List.not_mem_nil, or_false] at hp
  rcases hp with rfl | rfl | rfl
  · exact ⟨_, rfl, blank_any _⟩
  · exact ⟨_, rfl, blank_any _⟩
  · exact ⟨_, rfl, blank_any _⟩

theorem EvaluateCredentialRequestOptions.blank_ser (x : Ext) (o : EvaluateCredentialRequestOptions) : blank shape (o.ser x) = o.ser x := by
  unfold ser shape
  rw [blank, blankMembers_struct]
  intro p hp
  simp only [List.mem_cons, List.not_mem_nil, or_false] at hp
  rcases hp with rfl | rfl
  · exact ⟨_, rfl, blank_serOpt (CNonceOptions.blank_ser x) _⟩
  · exact ⟨_, rfl, blank_any _⟩

theorem CNonce.blank_ser (c : CNonce) : blank shape c.ser = c.ser := by
  unfold ser shape
  rw [blank, blankMembers_struct]
  intro p hp
  simp only [List.mem_cons, List.not_mem_nil, or_false] at hp
  rcases hp with rfl | rfl
  · exact ⟨_, rfl, blank_any _⟩
  · exact ⟨_, rfl, blank_any _⟩

theorem EvaluateAccessTokenRequestOptions.blank_ser (o : EvaluateAccessTokenRequestOptions) : blank shape o.ser = o.ser := by
  unfold ser shape
  rw [blank, blankMembers_struct]
  intro p hp
  simp only [List.mem_cons, List.not_mem_nil, or_false] at hp
  rcases hp with rfl
  · exact ⟨_, rfl, blank_any _⟩

theorem AuthorizationServerMetadata.blank_ser (m : AuthorizationServerMetadata) : blank shape m.ser = m.ser := rfl

theorem ProofJwtHeader.blank_ser (h : ProofJwtHeader) : blank shape h.ser = h.ser := by
  unfold ser shape
  rw [blank, blankMembers_flat]
  intro p hp τ hτ
  have : τ = .any := by
    simp only [List.lookup_cons, List.lookup_nil] at hτ
    repeat' split at hτ
    all_goals first | exact (Option.some.inj hτ).symm | cases hτ
  rw [this, blank_any]

theorem ProofJwtBody.blank_ser (x : Ext) (b : ProofJwtBody) : blank shape (b.ser x) = b.ser x := by
  unfold ser shape
  rw [blank, blankMembers_struct]
  intro p hp
  have hk : p.1 ∈ [str! "iss", str! "aud", str! "sub", str! "iat", str! "nonce", str! "nbf", str! "exp"] := by
    obtain ⟨iss, aud, sub, iat, nonce, nbf, exp⟩ := b
    cases iss <;> cases nbf <;> cases exp <;>
      simp only [skipNone, List.mem_append, List.mem_cons, List.not_mem_nil, or_false, false_or] at hp <;>
      (repeat' rcases hp with hp | hp) <;> dsimp only <;> decide
  simp only [List.mem_cons, List.not_mem_nil, or_false] at hk
  rcases hk with hk | hk | hk | hk | hk | hk | hk <;> rw [hk] <;> exact ⟨_, rfl, blank_any _⟩

theorem ProofJwt.blank_ser (x : Ext) (j : ProofJwt) : blank shape (j.ser x) = j.ser x := by
  unfold ser shape
  rw [blank, blankMembers_struct]
  intro p hp
  simp only [List.mem_cons, List.not_mem_nil, or_false] at hp
  rcases hp with rfl | rfl | rfl
  · exact ⟨_, rfl, j.header.blank_ser⟩
  · exact ⟨_, rfl, j.body.blank_ser x⟩
  · exact ⟨_, rfl, blank_any _⟩

/-! ### What is read from what is written -/

theorem read_print {α : Type} {σ : Shape} {d : De α} {v : Json} (h : RustNumbers v) (hb : blank σ v = v) :
    (see σ v.print).bind d = (Json.parse v.print).bind d := by
  rw [see_print h hb]

theorem CredentialOffer.fromJson_ser (o : CredentialOffer) (h : RustNumbers o.ser) :
    fromJson o.ser.print = (Json.parse o.ser.print).bind de := read_print h o.blank_ser

theorem CredentialSuccessResponse.fromJson_ser (r : CredentialSuccessResponse) (h : RustNumbers r.ser) :
    fromJson r.ser.print = (Json.parse r.ser.print).bind de := read_print h r.blank_ser

theorem AccessTokenSuccessResponse.fromJson_ser (r : AccessTokenSuccessResponse) (h : RustNumbers r.ser) :
    fromJson r.ser.print = (Json.parse r.ser.print).bind de := read_print h r.blank_ser

theorem AccessTokenRequest.fromJson_ser (r : AccessTokenRequest) (h : RustNumbers r.ser) :
    fromJson r.ser.print = (Json.parse r.ser.print).bind de := read_print h r.blank_ser

theorem CredentialIssuerMetadata.fromJson_ser (m : CredentialIssuerMetadata) (h : RustNumbers m.ser)
    (ha : ∀ a ∈ m.additionalFields, ∀ p ∈ a, p.1 ∉ metadataFields) :
    fromJson m.ser.print = (Json.parse m.ser.print).bind de := read_print h (m.blank_ser ha)

theorem CredentialRequest.fromJson_ser (r : CredentialRequest) (h : RustNumbers r.ser) :
    fromJson r.ser.print = (Json.parse r.ser.print).bind de := read_print h r.blank_ser

theorem EvaluateCredentialRequestOptions.fromJson_ser (x : Ext) (o : EvaluateCredentialRequestOptions)
    (h : RustNumbers (o.ser x)) : fromJson x (o.ser x).print = (Json.parse (o.ser x).print).bind (de x) :=
  read_print h (o.blank_ser x)

theorem CNonce.fromJson_ser (c : CNonce) (h : RustNumbers c.ser) :
    fromJson c.ser.print = (Json.parse c.ser.print).bind de := read_print h c.blank_ser

theorem EvaluateAccessTokenRequestOptions.fromJson_ser (o : EvaluateAccessTokenRequestOptions)
    (h : RustNumbers o.ser) : fromJson o.ser.print = (Json.parse o.ser.print).bind de := read_print h o.blank_ser

theorem AuthorizationServerMetadata.fromJson_ser (m : AuthorizationServerMetadata) (h : RustNumbers m.ser) :
    fromJson m.ser.print = (Json.parse m.ser.print).bind de := read_print h m.blank_ser

theorem ProofJwt.fromJson_ser (x : Ext) (j : ProofJwt) (h : RustNumbers (j.ser x)) :
    fromJson x (j.ser x).print = (Json.parse (j.ser x).print).bind (de x) := read_print h (j.blank_ser x)

end Oid4vci
