import Verif.Lemmas.Blank
import Verif.Lemmas.Settle
import Verif.Model.Options

/-! What the types read does not depend on what they skip. -/

namespace Oid4vci
namespace Json

open Spec Serde

/-! ### Blanks and the readers of fields -/

theorem blank_null_iff {σ : Shape} {j : Json} : blank σ j = null ↔ j = null := by
  cases j <;> simp [blank]

/-- A reader which does not look at what is skipped. -/
def Follows {α : Type} (σ : Shape) (d : De α) : Prop := ∀ j, d (blank σ j) = d j

theorem follows_any {α : Type} (d : De α) : Follows .any d := fun j => by rw [blank_any]

theorem Follows.option {α : Type} {σ : Shape} {d : De α} (h : Follows σ d) (j : Json) :
    Serde.option d (blank σ j) = Serde.option d j := by
  have hj := h j
  cases j <;> simp only [blank, Serde.option] at * <;> rw [hj]

theorem Follows.req {α : Type} {σ : Shape} {d : De α} (h : Follows σ d) (o : Option Json) :
    Serde.req d (o.map (blank σ)) = Serde.req d o := by
  cases o with
  | none => rfl
  | some j => exact h j

theorem Follows.opt {α : Type} {σ : Shape} {d : De α} (h : Follows σ d) (o : Option Json) :
    Serde.opt d (o.map (blank σ)) = Serde.opt d o := by
  cases o with
  | none => rfl
  | some j => exact h.option j

theorem Follows.dflt {α : Type} {σ : Shape} {d : De α} (h : Follows σ d) (a : α) (o : Option Json) :
    Serde.dflt d a (o.map (blank σ)) = Serde.dflt d a o := by
  cases o with
  | none => rfl
  | some j => exact h j

theorem Follows.vec {α : Type} {σ : Shape} {d : De α} (h : Follows σ d) : Follows (.vec σ) (Serde.vec d) := by
  intro j
  cases j with
  | arr xs =>
    rw [blank]
    show all d _ = all d _
    suffices ∀ i, all d (blankList (.vec σ) i xs) = all d xs from this 0
    induction xs with
    | nil => intro i; rfl
    | cons x xs ih =>
      intro i
      rw [blankList, all, all, ih, show (Shape.vec σ).item i = σ from rfl, h x]
  | obj kvs => rfl
  | _ => rfl

/-- The fields, each with its own blanks. -/
def blankFields (fs : List (Str × Shape)) (os : List (Option Json)) : List (Option Json) :=
  List.zipWith (fun p o => o.map (blank p.2)) fs os

theorem occurrences_blank (σ : Shape) (k : Str) (kvs : List (Str × Json)) :
    occurrences k (blankMembers σ kvs) = (occurrences k kvs).map (blankMember σ k) := by
  induction kvs with
  | nil => rfl
  | cons p kvs ih =>
    obtain ⟨k', v⟩ := p
    rw [blankMembers_cons]
    unfold occurrences at ih ⊢
    by_cases hk : k' = k
    · subst hk
      simp only [List.filter_cons, decide_true, if_true, List.map_cons, ih]
    · simp only [List.filter_cons, hk, decide_false, Bool.false_eq_true, if_false, ih]

theorem field_blank (σ : Shape) (k : Str) (kvs : List (Str × Json)) :
    field k (blankMembers σ kvs) = (field k kvs).map (Option.map (blankMember σ k)) := by
  unfold field
  rw [occurrences_blank]
  rcases occurrences k kvs with _ | ⟨a, _ | ⟨b, l⟩⟩ <;> rfl

theorem fields_blank (σ : Shape) (kvs : List (Str × Json)) (fs : List (Str × Shape))
    (h : ∀ p ∈ fs, σ.member p.1 = some p.2) :
    fields (fs.map Prod.fst) (blankMembers σ kvs) = (fields (fs.map Prod.fst) kvs).map (blankFields fs) := by
  induction fs with
  | nil => rfl
  | cons p fs ih =>
    have hp : blankMember σ p.1 = blank p.2 := by
      funext v; unfold blankMember; rw [h p (by simp)]
    rw [List.map_cons, fields, fields, field_blank, ih fun q hq => h q (List.mem_cons_of_mem _ hq), hp]
    cases field p.1 kvs with
    | none => rfl
    | some o =>
      cases fields (fs.map Prod.fst) kvs with
      | none => rfl
      | some os => rfl

theorem lookup_mem {fs : List (Str × Shape)} (h : (fs.map Prod.fst).Nodup) :
    ∀ p ∈ fs, fs.lookup p.1 = some p.2 := by
  induction fs with
  | nil => intro p hp; cases hp
  | cons q fs ih =>
    rw [List.map_cons, List.nodup_cons] at h
    intro p hp
    rcases List.mem_cons.1 hp with rfl | hp
    · rw [List.lookup_cons]; simp
    · rw [List.lookup_cons]
      have : (p.1 == q.1) = false := by
        rw [beq_eq_false_iff_ne]
        intro e
        exact h.1 (e ▸ List.mem_map_of_mem hp)
      rw [this]
      exact ih h.2 p hp

theorem lookup_none {fs : List (Str × Shape)} {k : Str} (h : k ∉ fs.map Prod.fst) : fs.lookup k = none := by
  induction fs with
  | nil => rfl
  | cons q fs ih =>
    rw [List.map_cons, List.mem_cons, not_or] at h
    rw [List.lookup_cons, beq_eq_false_iff_ne.2 h.1]
    exact ih h.2

theorem blankList_positions (fs : List (Str × Shape)) (xs : List Json) : ∀ (i : Nat),
    xs.length ≤ (fs.drop i).length →
    (blankList (.struct fs) i xs).map some = blankFields (fs.drop i) (xs.map some) := by
  induction xs with
  | nil => intro i _; rw [blankList, List.map_nil]; simp [blankFields]
  | cons x xs ih =>
    intro i h
    cases hd : fs.drop i with
    | nil => rw [hd] at h; simp at h
    | cons p l =>
      have hg : fs[i]? = some p := by
        rw [← List.head?_drop, hd]; rfl
      have hn : fs.drop (i + 1) = l := by
        rw [← List.tail_drop, hd]; rfl
      rw [hd] at h
      simp only [List.length_cons] at h
      rw [blankList, List.map_cons, ih (i + 1) (by rw [hn]; omega), hn]
      simp only [Shape.item, hg, blankFields, List.map_cons, List.zipWith_cons_cons, Option.map_some]

theorem blankList_length (σ : Shape) (xs : List Json) : ∀ i, (blankList σ i xs).length = xs.length := by
  induction xs with
  | nil => intro i; rfl
  | cons x xs ih => intro i; rw [blankList, List.length_cons, List.length_cons, ih]

theorem struct_blank (fs : List (Str × Shape)) (h : (fs.map Prod.fst).Nodup) (j : Json) :
    struct (fs.map Prod.fst) (blank (.struct fs) j)
      = (struct (fs.map Prod.fst) j).map (blankFields fs) := by
  cases j with
  | obj kvs => rw [blank]; exact fields_blank _ _ _ (lookup_mem h)
  | arr xs =>
    rw [blank]
    simp only [struct, blankList_length]
    split
    · rename_i hl
      rw [List.length_map] at hl
      have := blankList_positions fs xs 0 (by rw [List.drop_zero]; omega)
      rw [List.drop_zero] at this
      rw [this]; rfl
    · rfl
  | _ => rfl

theorem blankMembers_rest (fs : List (Str × Shape)) (kvs : List (Str × Json)) :
    (blankMembers (.flat fs) kvs).filter (fun p => decide (p.1 ∉ fs.map Prod.fst))
      = kvs.filter (fun p => decide (p.1 ∉ fs.map Prod.fst)) := by
  induction kvs with
  | nil => rfl
  | cons p kvs ih =>
    obtain ⟨k, v⟩ := p
    rw [blankMembers_cons, List.filter_cons, List.filter_cons, ih]
    by_cases hk : k ∈ fs.map Prod.fst
    · rw [if_neg (by simp only [hk]; decide), if_neg (by simp only [hk]; decide)]
    · have : blankMember (.flat fs) k v = v := by
        simp only [blankMember, Shape.member, lookup_none hk, Option.getD_none, blank_any]
      rw [if_pos (by simp only [hk]; decide), if_pos (by simp only [hk]; decide), this]

theorem structFlat_blank (fs : List (Str × Shape)) (h : (fs.map Prod.fst).Nodup) (j : Json) :
    structFlat (fs.map Prod.fst) (blank (.flat fs) j)
      = (structFlat (fs.map Prod.fst) j).map fun p => (blankFields fs p.1, p.2) := by
  cases j with
  | obj kvs =>
    rw [blank, structFlat, structFlat, blankMembers_rest,
      fields_blank _ _ _ fun p hp => by simp only [Shape.member, lookup_mem h p hp, Option.getD_some]]
    cases fields (fs.map Prod.fst) kvs <;> rfl
  | _ => rfl

theorem fields_length : ∀ {ks : List Str} {kvs : List (Str × Json)} {os : List (Option Json)},
    fields ks kvs = some os → os.length = ks.length
  | [], _, _, h => by cases h; rfl
  | k :: ks, kvs, os, h => by
    rw [fields] at h
    cases h1 : field k kvs with
    | none => simp [h1] at h
    | some o =>
      cases h2 : fields ks kvs with
      | none => simp [h1, h2] at h
      | some l =>
        simp only [h1, h2, Option.some.injEq] at h
        subst h
        simp [fields_length h2]

theorem struct_length {ks : List Str} {j : Json} {os : List (Option Json)} (h : struct ks j = some os) :
    os.length = ks.length := by
  cases j with
  | obj kvs => exact fields_length h
  | arr xs =>
    simp only [struct] at h
    split at h
    · cases h; simpa
    · cases h
  | _ => cases h

theorem structFlat_length {ks : List Str} {j : Json} {p : List (Option Json) × List (Str × Json)}
    (h : structFlat ks j = some p) : p.1.length = ks.length := by
  cases j with
  | obj kvs =>
    simp only [structFlat, Option.map_eq_some_iff] at h
    obtain ⟨os, h1, rfl⟩ := h
    exact fields_length h1
  | _ => cases h

end Json

open Json Serde

/-! ### The types -/

theorem AuthorizedCodeFlow.follows : Follows shape de := by
  intro j
  unfold de shape
  have := struct_blank [(str! "issuer_state", .any)] (by decide) j
  simp only [List.map_cons, List.map_nil] at this
  rw [this]
  cases h : struct [str! "issuer_state"] j with
  | none => rfl
  | some os =>
    match os, struct_length h with
    | [a], _ =>
      simp only [Option.map_some, blankFields, List.zipWith_cons_cons, List.zipWith_nil_left, (follows_any _).opt]

theorem PreAuthorizedCodeFlow.follows : Follows shape de := by
  intro j
  unfold de shape
  have := struct_blank [(str! "pre-authorized_code", .any), (str! "user_pin_required", .any)] (by decide) j
  simp only [List.map_cons, List.map_nil] at this
  rw [this]
  cases h : struct [str! "pre-authorized_code", str! "user_pin_required"] j with
  | none => rfl
  | some os =>
    match os, struct_length h with
    | [a, b], _ =>
      simp only [Option.map_some, blankFields, List.zipWith_cons_cons, List.zipWith_nil_left, (follows_any _).req, (follows_any _).opt]

theorem CredentialOfferGrants.follows : Follows shape de := by
  intro j
  unfold de shape
  have := struct_blank [(str! "authorization_code", AuthorizedCodeFlow.shape), (str! "urn:ietf:params:oauth:grant-type:pre-authorized_code", PreAuthorizedCodeFlow.shape)] (by decide) j
  simp only [List.map_cons, List.map_nil] at this
  rw [this]
  cases h : struct [str! "authorization_code", str! "urn:ietf:params:oauth:grant-type:pre-authorized_code"] j with
  | none => rfl
  | some os =>
    match os, struct_length h with
    | [a, b], _ =>
      simp only [Option.map_some, blankFields, List.zipWith_cons_cons, List.zipWith_nil_left, AuthorizedCodeFlow.follows.opt, PreAuthorizedCodeFlow.follows.opt]

theorem CredentialOffer.follows : Follows shape de := by
  intro j
  unfold de shape
  have := struct_blank [(str! "credential_issuer", .any), (str! "credentials", .vec .any), (str! "grants", CredentialOfferGrants.shape)] (by decide) j
  simp only [List.map_cons, List.map_nil] at this
  rw [this]
  cases h : struct [str! "credential_issuer", str! "credentials", str! "grants"] j with
  | none => rfl
  | some os =>
    match os, struct_length h with
    | [a, b, c], _ =>
      simp only [Option.map_some, blankFields, List.zipWith_cons_cons, List.zipWith_nil_left, (follows_any _).req, (follows_any CredentialOrId.de).vec.req, CredentialOfferGrants.follows.req]

theorem CredentialSuccessResponse.follows : Follows shape de := by
  intro j
  unfold de shape
  have := struct_blank [(str! "format", .any), (str! "credential", .any), (str! "acceptance_token", .any), (str! "c_nonce", .any), (str! "c_nonce_expires_in", .any)] (by decide) j
  simp only [List.map_cons, List.map_nil] at this
  rw [this]
  cases h : struct [str! "format", str! "credential", str! "acceptance_token", str! "c_nonce", str! "c_nonce_expires_in"] j with
  | none => rfl
  | some os =>
    match os, struct_length h with
    | [a, b, c, d, e], _ =>
      simp only [Option.map_some, blankFields, List.zipWith_cons_cons, List.zipWith_nil_left, (follows_any _).req, (follows_any _).opt]

theorem AccessTokenSuccessResponse.follows : Follows shape de := by
  intro j
  unfold de shape
  have := struct_blank [(str! "access_token", .any), (str! "token_type", .any), (str! "expires_in", .any), (str! "scope", .any), (str! "c_nonce", .any), (str! "c_nonce_expires_in", .any), (str! "authorization_pending", .any), (str! "interval", .any)] (by decide) j
  simp only [List.map_cons, List.map_nil] at this
  rw [this]
  cases h : struct [str! "access_token", str! "token_type", str! "expires_in", str! "scope", str! "c_nonce", str! "c_nonce_expires_in", str! "authorization_pending", str! "interval"] j with
  | none => rfl
  | some os =>
    match os, struct_length h with
    | [a, b, c, d, e, f, g, h], _ =>
      simp only [Option.map_some, blankFields, List.zipWith_cons_cons, List.zipWith_nil_left, (follows_any _).req, (follows_any _).opt]

theorem AccessTokenRequest.follows : Follows shape de := by
  intro j
  unfold de shape
  have := struct_blank [(str! "grant_type", .any)] (by decide) j
  simp only [List.map_cons, List.map_nil] at this
  rw [this]
  cases h : struct [str! "grant_type"] j with
  | none => rfl
  | some os =>
    match os, struct_length h with
    | [a], _ =>
      simp only [Option.map_some, blankFields, List.zipWith_cons_cons, List.zipWith_nil_left, (follows_any _).req]

theorem DisplayLogo.follows : Follows shape de := by
  intro j
  unfold de shape
  have := struct_blank [(str! "url", .any), (str! "alt_text", .any)] (by decide) j
  simp only [List.map_cons, List.map_nil] at this
  rw [this]
  cases h : struct [str! "url", str! "alt_text"] j with
  | none => rfl
  | some os =>
    match os, struct_length h with
    | [a, b], _ =>
      simp only [Option.map_some, blankFields, List.zipWith_cons_cons, List.zipWith_nil_left, (follows_any _).opt]

theorem DisplayProperties.follows : Follows shape de := by
  intro j
  unfold de shape
  have := struct_blank [(str! "name", .any), (str! "locale", .any), (str! "logo", DisplayLogo.shape), (str! "description", .any), (str! "background_color", .any), (str! "text_color", .any)] (by decide) j
  simp only [List.map_cons, List.map_nil] at this
  rw [this]
  cases h : struct [str! "name", str! "locale", str! "logo", str! "description", str! "background_color", str! "text_color"] j with
  | none => rfl
  | some os =>
    match os, struct_length h with
    | [a, b, c, d, e, f], _ =>
      simp only [Option.map_some, blankFields, List.zipWith_cons_cons, List.zipWith_nil_left, (follows_any _).req, (follows_any _).opt, DisplayLogo.follows.opt]

theorem CredentialSupported.follows : Follows shape de := by
  intro j
  unfold de shape
  have := structFlat_blank [(str! "id", .any), (str! "cryptographic_binding_mehtods_supported", .any), (str! "cryptographic_suites_supported", .any), (str! "display", .vec DisplayProperties.shape)] (by decide) j
  simp only [List.map_cons, List.map_nil] at this
  rw [this]
  cases h : structFlat [str! "id", str! "cryptographic_binding_mehtods_supported", str! "cryptographic_suites_supported", str! "display"] j with
  | none => rfl
  | some p =>
    match p, structFlat_length h with
    | ([a, b, c, d], r), _ =>
      simp only [Option.map_some, blankFields, List.zipWith_cons_cons, List.zipWith_nil_left, (follows_any _).opt, DisplayProperties.follows.vec.opt]

theorem CredentialIssuerMetadata.follows : Follows shape de := by
  intro j
  unfold de shape
  have := structFlat_blank [(str! "credential_issuer", .any), (str! "authorization_server", .any), (str! "credential_endpoint", .any), (str! "batch_credential_endpoint", .any), (str! "credentials_supported", .vec CredentialSupported.shape)] (by decide) j
  simp only [List.map_cons, List.map_nil] at this
  rw [this]
  cases h : structFlat [str! "credential_issuer", str! "authorization_server", str! "credential_endpoint", str! "batch_credential_endpoint", str! "credentials_supported"] j with
  | none => rfl
  | some p =>
    match p, structFlat_length h with
    | ([a, b, c, d, e], r), _ =>
      simp only [Option.map_some, blankFields, List.zipWith_cons_cons, List.zipWith_nil_left, (follows_any _).req, (follows_any _).opt, CredentialSupported.follows.vec.req]

theorem CredentialRequestProof.follows : Follows shape de := by
  intro j
  unfold de shape
  have := struct_blank [(str! "proof_type", .any), (str! "jwt", .any)] (by decide) j
  simp only [List.map_cons, List.map_nil] at this
  rw [this]
  cases h : struct [str! "proof_type", str! "jwt"] j with
  | none => rfl
  | some os =>
    match os, struct_length h with
    | [a, b], _ =>
      simp only [Option.map_some, blankFields, List.zipWith_cons_cons, List.zipWith_nil_left, (follows_any _).dflt, (follows_any _).req]

theorem CredentialRequest.follows : Follows shape de := by
  intro j
  unfold de shape
  have := structFlat_blank [(str! "proof", CredentialRequestProof.shape)] (by decide) j
  simp only [List.map_cons, List.map_nil] at this
  rw [this]
  cases h : structFlat [str! "proof"] j with
  | none => rfl
  | some p =>
    match p, structFlat_length h with
    | ([a], r), _ =>
      simp only [Option.map_some, blankFields, List.zipWith_cons_cons, List.zipWith_nil_left, CredentialRequestProof.follows.opt]

theorem CNonceOptions.follows (x : Ext) : Follows shape (de x) := by
  intro j
  unfold de shape
  have := struct_blank [(str! "c_nonce_expires_in", .any), (str! "expected_c_nonce", .any), (str! "c_nonce_created_at", .any)] (by decide) j
  simp only [List.map_cons, List.map_nil] at this
  rw [this]
  cases h : struct [str! "c_nonce_expires_in", str! "expected_c_nonce", str! "c_nonce_created_at"] j with
  | none => rfl
  | some os =>
    match os, struct_length h with
    | [a, b, c], _ =>
      simp only [Option.map_some, blankFields, List.zipWith_cons_cons, List.zipWith_nil_left, (follows_any _).req]

theorem EvaluateCredentialRequestOptions.follows (x : Ext) : Follows shape (de x) := by
  intro j
  unfold de shape
  have := struct_blank [(str! "c_nonce", CNonceOptions.shape), (str! "client_id", .any)] (by decide) j
  simp only [List.map_cons, List.map_nil] at this
  rw [this]
  cases h : struct [str! "c_nonce", str! "client_id"] j with
  | none => rfl
  | some os =>
    match os, struct_length h with
    | [a, b], _ =>
      simp only [Option.map_some, blankFields, List.zipWith_cons_cons, List.zipWith_nil_left, (CNonceOptions.follows x).opt, (follows_any _).opt]

theorem CNonce.follows : Follows shape de := by
  intro j
  unfold de shape
  have := struct_blank [(str! "c_nonce", .any), (str! "c_nonce_expires_in", .any)] (by decide) j
  simp only [List.map_cons, List.map_nil] at this
  rw [this]
  cases h : struct [str! "c_nonce", str! "c_nonce_expires_in"] j with
  | none => rfl
  | some os =>
    match os, struct_length h with
    | [a, b], _ =>
      simp only [Option.map_some, blankFields, List.zipWith_cons_cons, List.zipWith_nil_left, (follows_any _).req, (follows_any _).opt]

theorem EvaluateAccessTokenRequestOptions.follows : Follows shape de := by
  intro j
  unfold de shape
  have := struct_blank [(str! "expected_user_pin", .any)] (by decide) j
  simp only [List.map_cons, List.map_nil] at this
  rw [this]
  cases h : struct [str! "expected_user_pin"] j with
  | none => rfl
  | some os =>
    match os, struct_length h with
    | [a], _ =>
      simp only [Option.map_some, blankFields, List.zipWith_cons_cons, List.zipWith_nil_left, (follows_any _).opt]

theorem AuthorizationServerMetadata.follows : Follows shape de := by
  intro j
  unfold de shape
  have := struct_blank [] (by decide) j
  simp only [List.map_nil] at this
  rw [this]
  cases h : struct [] j with
  | none => rfl
  | some os =>
    match os, struct_length h with
    | [], _ =>
      simp only [Option.map_some, blankFields, List.zipWith_nil_left]

theorem ProofJwtHeader.follows : Follows shape de := by
  intro j
  unfold de shape
  have := structFlat_blank [(str! "typ", .any), (str! "alg", .any)] (by decide) j
  simp only [List.map_cons, List.map_nil] at this
  rw [this]
  cases h : structFlat [str! "typ", str! "alg"] j with
  | none => rfl
  | some p =>
    match p, structFlat_length h with
    | ([a, b], r), _ =>
      simp only [Option.map_some, blankFields, List.zipWith_cons_cons, List.zipWith_nil_left, (follows_any _).req]

theorem ProofJwtBody.follows (x : Ext) : Follows shape (de x) := by
  intro j
  unfold de shape
  have := struct_blank [(str! "iss", .any), (str! "aud", .any), (str! "sub", .any), (str! "iat", .any), (str! "nonce", .any), (str! "nbf", .any), (str! "exp", .any)] (by decide) j
  simp only [List.map_cons, List.map_nil] at this
  rw [this]
  cases h : struct [str! "iss", str! "aud", str! "sub", str! "iat", str! "nonce", str! "nbf", str! "exp"] j with
  | none => rfl
  | some os =>
    match os, struct_length h with
    | [a, b, c, d, e, f, g], _ =>
      simp only [Option.map_some, blankFields, List.zipWith_cons_cons, List.zipWith_nil_left, (follows_any _).opt, (follows_any _).req]

theorem ProofJwt.follows (x : Ext) : Follows shape (de x) := by
  intro j
  unfold de shape
  have := struct_blank [(str! "header", ProofJwtHeader.shape), (str! "body", ProofJwtBody.shape), (str! "signature", .any)] (by decide) j
  simp only [List.map_cons, List.map_nil] at this
  rw [this]
  cases h : struct [str! "header", str! "body", str! "signature"] j with
  | none => rfl
  | some os =>
    match os, struct_length h with
    | [a, b, c], _ =>
      simp only [Option.map_some, blankFields, List.zipWith_cons_cons, List.zipWith_nil_left, ProofJwtHeader.follows.req, (ProofJwtBody.follows x).req, (follows_any _).opt]

end Oid4vci
