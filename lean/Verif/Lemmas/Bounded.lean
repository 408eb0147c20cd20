import Verif.Spec.Bounded
import Verif.Props.Length

/-! Strings of a document are no longer than its text. -/

namespace Oid4vci

open Spec Serde

theorem stringValue_length {v t : Str} (h : ValueText (.str v) t) : v.length ≤ t.length := by
  cases h with
  | string v s h =>
    obtain ⟨u, hu, rfl⟩ := h
    have := Reading.charsText_length hu
    simp only [List.length_cons, List.length_append]
    omega

theorem memberText_length {k v t : Str} (h : MemberText k (.str v) t) : v.length ≤ t.length := by
  cases h with
  | mk k v s w w' t _ _ _ h =>
    have := stringValue_length h
    simp only [List.length_append, List.length_cons]
    omega

theorem elements_length : ∀ {xs : List Json} {t : Str}, ElementsText xs t → ∀ v, Json.str v ∈ xs → v.length ≤ t.length
  | _, _, .close _ _, _, h => by simp at h
  | _, _, .more x xs w w' s t _ _ hx ht, v, h => by
    simp only [List.length_append, List.length_cons]
    rcases List.mem_cons.1 h with rfl | h
    · have := stringValue_length hx; omega
    · have := elements_length ht v h; omega

theorem members_length : ∀ {kvs : List (Str × Json)} {t : Str}, MembersText kvs t → ∀ k v, (k, Json.str v) ∈ kvs →
    v.length ≤ t.length
  | _, _, .close _ _, _, _, h => by simp at h
  | _, _, .more k' v' kvs w w' s t _ _ hx ht, k, v, h => by
    simp only [List.length_append, List.length_cons]
    rcases List.mem_cons.1 h with e | h
    · cases e
      have := memberText_length hx; omega
    · have := members_length ht k v h; omega

/-- The strings right inside of the document have at most `n` characters. -/
def ShortStrings (n : Nat) (j : Json) : Prop :=
  (∀ kvs, j = .obj kvs → ∀ k v, (k, Json.str v) ∈ kvs → v.length ≤ n) ∧
  (∀ xs, j = .arr xs → ∀ v, Json.str v ∈ xs → v.length ≤ n)

theorem ShortStrings.mono {n m : Nat} {j : Json} (h : ShortStrings n j) (hm : n ≤ m) : ShortStrings m j :=
  ⟨fun kvs e k v hk => (h.1 kvs e k v hk).trans hm, fun xs e v hv => (h.2 xs e v hv).trans hm⟩

theorem value_short {j : Json} {s : Str} (h : ValueText j s) : ShortStrings s.length j := by
  constructor
  · rintro kvs rfl k v hk
    cases h with
    | emptyObject => simp at hk
    | object k' v' kvs w s t _ hm ht =>
      simp only [List.length_append, List.length_cons]
      rcases List.mem_cons.1 hk with e | hk
      · cases e
        have := memberText_length hm; omega
      · have := members_length ht k v hk; omega
  · rintro xs rfl v hv
    cases h with
    | emptyArray => simp at hv
    | array x xs w s t _ hm ht =>
      simp only [List.length_append, List.length_cons]
      rcases List.mem_cons.1 hv with e | hv
      · cases e
        have := stringValue_length hm; omega
      · have := elements_length ht v hv; omega

theorem text_short {j : Json} {s : Str} (h : JsonText j s) : ShortStrings s.length j := by
  obtain ⟨w, t, w', _, ht, _, rfl⟩ := h
  refine (value_short ht).mono ?_
  simp only [List.length_append]
  omega

theorem isUtf8_length {s : Str} {b : Bytes} (h : IsUtf8 s b) : s.length ≤ b.length := by
  have := Reading.utf8_length s
  rwa [(C66_encode s b).2 h] at this

theorem slice_short {j : Json} {b : Bytes} (h : Json.parseSlice b = some j) : ShortStrings b.length j := by
  obtain ⟨s, hs, hj, _⟩ := (C65_bytes b j).1 h
  exact (text_short hj).mono (isUtf8_length hs)

theorem utf8Text_length {s t : Str} (h : Utf8Text s t) : s.length ≤ t.length := by
  obtain ⟨b, hb, ho⟩ := h
  have h1 := isUtf8_length hb
  have h2 := congrArg List.length (show b.map UInt8.toNat = t.map Char.toNat from ho)
  simp only [List.length_map] at h2
  omega

theorem looseMember_length {known : List Str} {k v t : Str} (h : LooseMember known k (.str v) t) : v.length ≤ t.length := by
  cases h with
  | known k v n s w w' u t _ _ _ _ hv _ hu =>
    have := stringValue_length hv
    have := utf8Text_length hu
    simp only [List.length_append, List.length_cons]
    omega

theorem looseMembers_length {known : List Str} {kvs : List (Str × Json)} {t : Str} (h : LooseMembers known kvs t) :
    ∀ k v, (k, Json.str v) ∈ kvs → v.length ≤ t.length := by
  induction h with
  | close => simp
  | more k' v' kvs w w' s t _ _ hm _ ih =>
    intro k v hk
    simp only [List.length_append, List.length_cons]
    rcases List.mem_cons.1 hk with e | hk
    · cases e
      have := looseMember_length hm; omega
    · have := ih k v hk; omega

theorem loose_short {known : List Str} {j : Json} {b : Bytes} (h : LooseText known j b) : ShortStrings b.length j := by
  cases h with
  | other j s b _ hj _ hb => exact (text_short hj).mono (isUtf8_length hb)
  | object kvs w t w' b _ ho _ hb =>
    have hl : b.length = (w ++ t ++ w').length := by
      have := congrArg List.length (show b.map UInt8.toNat = (w ++ t ++ w').map Char.toNat from hb)
      simpa only [List.length_map] using this
    refine ⟨?_, by rintro xs ⟨⟩⟩
    rintro _ ⟨⟩ k v hk
    rw [hl]
    simp only [List.length_append]
    cases ho with
    | empty => simp at hk
    | members k' v' kvs w s t _ hm ht =>
      simp only [List.length_append, List.length_cons]
      rcases List.mem_cons.1 hk with e | hk
      · cases e
        have := looseMember_length hm; omega
      · have := looseMembers_length ht k v hk; omega

/-! ### Through serde -/

/-- A field that is a string is a short one. -/
def ShortField (n : Nat) (o : Option Json) : Prop := ∀ v, o = some (.str v) → v.length ≤ n

theorem field_mem {k : Str} {kvs : List (Str × Json)} {j : Json} (h : field k kvs = some (some j)) : (k, j) ∈ kvs := by
  unfold field at h
  split at h
  · cases h
  · rename_i j' e
    cases h
    have : j ∈ occurrences k kvs := by rw [e]; simp
    unfold occurrences at this
    obtain ⟨⟨k', j'⟩, h1, h2⟩ := List.mem_map.1 this
    have hm := List.mem_filter.1 h1
    dsimp only at h2
    subst h2
    have hk : k' = k := by simpa using hm.2
    subst hk
    exact hm.1
  · cases h

theorem fields_short {n : Nat} {kvs : List (Str × Json)} (h : ∀ k v, (k, Json.str v) ∈ kvs → v.length ≤ n) :
    ∀ {ks : List Str} {os : List (Option Json)}, fields ks kvs = some os → ∀ o ∈ os, ShortField n o
  | [], _, e, o, ho => by cases e; simp at ho
  | k :: ks, os, e, o, ho => by
    simp only [fields] at e
    cases h1 : field k kvs with
    | none => simp [h1] at e
    | some f =>
      cases h2 : fields ks kvs with
      | none => simp [h1, h2] at e
      | some fs =>
        simp only [h1, h2] at e
        cases e
        rcases List.mem_cons.1 ho with rfl | ho
        · rintro v rfl
          exact h _ _ (field_mem h1)
        · exact fields_short h h2 o ho

theorem struct_short {n : Nat} {j : Json} (h : ShortStrings n j) {ks : List Str} {os : List (Option Json)}
    (e : struct ks j = some os) : ∀ o ∈ os, ShortField n o := by
  cases j with
  | obj kvs => exact fields_short (h.1 kvs rfl) e
  | arr xs =>
    simp only [struct] at e
    split at e
    · cases e
      intro o ho v hv
      obtain ⟨j, hj, rfl⟩ := List.mem_map.1 ho
      cases hv
      exact h.2 xs rfl v hj
    · cases e
  | _ => cases e

theorem req_short {n : Nat} {o : Option Json} {v : Str} (h : ShortField n o) (e : req Serde.string o = some v) :
    v.length ≤ n := by
  cases o with
  | none => cases e
  | some j => cases j <;> cases e; exact h _ rfl

theorem opt_short {n : Nat} {o : Option Json} {v : Str} (h : ShortField n o) (e : opt Serde.string o = some (some v)) :
    v.length ≤ n := by
  cases o with
  | none => cases e
  | some j => cases j <;> cases e; exact h _ rfl

theorem deFlat_short {n : Nat} {kvs : List (Str × Json)} (h : ∀ k v, (k, Json.str v) ∈ kvs → v.length ≤ n)
    {a : ProofJwtAdditionalHeader} (e : ProofJwtAdditionalHeader.deFlat kvs = some a) : ∃ v : Str, v.length ≤ n ∧
      (a = .keyId v ∨ a = .jwk v ∨ a = .x5c v) := by
  induction kvs with
  | nil => cases e
  | cons kv kvs ih =>
    obtain ⟨k, j⟩ := kv
    have hs : ∀ v, Serde.string j = some v → v.length ≤ n := by
      intro v hv
      cases j <;> cases hv
      exact h k _ (by simp)
    simp only [ProofJwtAdditionalHeader.deFlat] at e
    split at e
    · obtain ⟨v, hv, rfl⟩ := Option.map_eq_some_iff.1 e
      exact ⟨v, hs v hv, .inl rfl⟩
    split at e
    · obtain ⟨v, hv, rfl⟩ := Option.map_eq_some_iff.1 e
      exact ⟨v, hs v hv, .inr (.inl rfl)⟩
    split at e
    · obtain ⟨v, hv, rfl⟩ := Option.map_eq_some_iff.1 e
      exact ⟨v, hs v hv, .inr (.inr rfl)⟩
    · exact ih (fun k v hk => h k v (List.mem_cons_of_mem _ hk)) e

/-- The key of a header, as it was sent. -/
def ProofJwtAdditionalHeader.text : ProofJwtAdditionalHeader → Str
  | .keyId v => v
  | .jwk v => v
  | .x5c v => v

theorem header_short {n : Nat} {j : Json} (hj : ShortStrings n j) {h : ProofJwtHeader}
    (e : ProofJwtHeader.de j = some h) :
    h.typ.length ≤ n ∧ ∀ a, h.additionalHeader = some a → a.text.length ≤ n := by
  unfold ProofJwtHeader.de at e
  split at e
  · rename_i typ alg rest hs
    cases j with
    | obj kvs =>
      simp only [structFlat, Option.map_eq_some_iff, Prod.mk.injEq] at hs
      obtain ⟨os, hf, rfl, rfl⟩ := hs
      have h1 := fields_short (hj.1 kvs rfl) hf
      simp only [Option.bind_eq_bind, Option.bind_eq_some_iff] at e
      obtain ⟨t, ht, al, _, e⟩ := e
      cases e
      refine ⟨req_short (h1 _ (by simp)) ht, ?_⟩
      intro a ha
      obtain ⟨v, hv, rfl | rfl | rfl⟩ := deFlat_short
        (fun k v hk => hj.1 kvs rfl k v (List.mem_filter.1 hk).1) ha
      all_goals exact hv
    | _ => cases hs
  · cases e

/-- All texts of a body are short. -/
structure ShortBody (x : Ext) (n K : Nat) (b : ProofJwtBody) : Prop where
  issuer : ∀ v, b.issuer = some v → v.length ≤ n
  audience : b.audience.length ≤ n
  subject : ∀ v, b.subject = some v → v.length ≤ n
  issuedAt : (x.showTime b.issuedAt).length ≤ n + K
  nonce : b.nonce.length ≤ n
  notBefore : ∀ t, b.notBefore = some t → (x.showTime t).length ≤ n + K
  expiresAt : ∀ t, b.expiresAt = some t → (x.showTime t).length ≤ n + K

theorem time_req {x : Ext} {K n : Nat} (hx : Restrained x K) {o : Option Json} {t : Time} (h : ShortField n o)
    (e : req (deTime x) o = some t) : (x.showTime t).length ≤ n + K := by
  cases o with
  | none => cases e
  | some j =>
    cases j with
    | str s =>
      have h1 := hx.time s t e
      have h2 := h s rfl
      omega
    | _ => cases e

theorem time_opt {x : Ext} {K n : Nat} (hx : Restrained x K) {o : Option Json} {t : Time} (h : ShortField n o)
    (e : opt (deTime x) o = some (some t)) : (x.showTime t).length ≤ n + K := by
  cases o with
  | none => cases e
  | some j =>
    cases j with
    | str s =>
      have e : (x.parseTime s).map some = some (some t) := e
      obtain ⟨t', ht, e'⟩ := Option.map_eq_some_iff.1 e
      cases e'
      have h1 := hx.time s t ht
      have h2 := h s rfl
      omega
    | _ => cases e

theorem body_short {x : Ext} {K n : Nat} (hx : Restrained x K) {j : Json} (hj : ShortStrings n j) {b : ProofJwtBody}
    (e : ProofJwtBody.de x j = some b) : ShortBody x n K b := by
  unfold ProofJwtBody.de at e
  split at e
  · rename_i iss aud sub iat nonce nbf exp hs
    have h := struct_short hj hs
    simp only [Option.bind_eq_bind, Option.bind_eq_some_iff] at e
    obtain ⟨a1, e1, a2, e2, a3, e3, a4, e4, a5, e5, a6, e6, a7, e7, e⟩ := e
    cases e
    exact {
      issuer := by rintro v rfl; exact opt_short (h _ (by simp)) e1
      audience := req_short (h _ (by simp)) e2
      subject := by rintro v rfl; exact opt_short (h _ (by simp)) e3
      issuedAt := time_req hx (h _ (by simp)) e4
      nonce := req_short (h _ (by simp)) e5
      notBefore := by rintro v rfl; exact time_opt hx (h _ (by simp)) e6
      expiresAt := by rintro v rfl; exact time_opt hx (h _ (by simp)) e7 }
  · cases e

theorem signature_length {s header body : Str} {rest : List Str} (h : splitOn '.' s = header :: body :: rest) :
    ∀ v, rest.head? = some v → v.length ≤ (utf8Encode s).length := by
  rintro v hv
  cases rest with
  | nil => cases hv
  | cons r rest =>
    cases hv
    have hj := joinWith_splitOn '.' s
    rw [h] at hj
    have hu := Reading.utf8_length s
    have hl := congrArg List.length hj
    have h2 : ∃ t, joinWith '.' (v :: rest) = v ++ t := by
      cases rest with
      | nil => exact ⟨[], by simp [joinWith]⟩
      | cons r rest => exact ⟨_, by simp [joinWith]; rfl⟩
    obtain ⟨t, ht⟩ := h2
    have h3 : joinWith '.' (header :: body :: v :: rest) = header ++ '.' :: (body ++ '.' :: (v ++ t)) := by
      rw [← ht]; simp [joinWith]
    rw [h3] at hl
    simp only [List.length_append, List.length_cons] at hl
    omega

/-- Everything in a proof is no longer than the proof. -/
theorem jwt_short {x : Ext} {K : Nat} (hx : Restrained x K) {s : Str} {j : ProofJwt} (h : ProofJwt.fromStr x s = .ok j) :
    j.header.typ.length ≤ (utf8Encode s).length ∧
    (∀ a, j.header.additionalHeader = some a → a.text.length ≤ (utf8Encode s).length) ∧
    ShortBody x (utf8Encode s).length K j.body ∧ ∀ v, j.signature = some v → v.length ≤ (utf8Encode s).length := by
  obtain ⟨hs, bs, rest, hb, bb, h1, h2, h3, h4, h5, h6⟩ := ProofJwt.fromStr_eq_ok.1 h
  obtain ⟨l1, l2⟩ := segment_length h1
  have d1 := decoded_length h2
  have d2 := decoded_length h3
  have u1 := Reading.utf8_length hs
  have u2 := Reading.utf8_length bs
  obtain ⟨hj, p1, e1⟩ := Option.bind_eq_some_iff.1 h4
  unfold ProofJwtBody.fromSlice at h5
  obtain ⟨bj, p2, e2⟩ := Option.bind_eq_some_iff.1 h5
  obtain ⟨a, b⟩ := header_short (n := (utf8Encode s).length) ((slice_short p1).mono (by omega)) e1
  refine ⟨a, b, body_short hx ((loose_short (Json.looseSlice_iff.1 p2)).mono (by omega)) e2, ?_⟩
  rw [h6]
  exact signature_length h1

end Oid4vci
