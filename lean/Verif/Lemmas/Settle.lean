import Verif.Lemmas.Reread

/-! The values read from what is written. -/

namespace Oid4vci
namespace Json

open Spec

mutual
/-- The document with its numbers as they are read again. -/
def settle : Json → Json
  | null => null
  | bool b => bool b
  | num n => num n
  | float d => float ((readFloat (printFloat d)).getD d)
  | str s => str s
  | arr xs => arr (settleList xs)
  | obj kvs => obj (settleMembers kvs)
/-- Its elements. -/
def settleList : List Json → List Json
  | [] => []
  | x :: xs => settle x :: settleList xs
/-- Its members. -/
def settleMembers : List (Str × Json) → List (Str × Json)
  | [] => []
  | (k, v) :: kvs => (k, settle v) :: settleMembers kvs
end

theorem settleList_eq (xs : List Json) : settleList xs = xs.map settle := by
  induction xs with
  | nil => rfl
  | cons x xs ih => simp [settleList, ih]

theorem settleMembers_eq (xs : List (Str × Json)) : settleMembers xs = xs.map fun p => (p.1, settle p.2) := by
  induction xs with
  | nil => rfl
  | cons x xs ih => obtain ⟨k, v⟩ := x; simp [settleMembers, ih]

mutual
theorem reread_settle (v : Json) (h : RustNumbers v) : reread v = some (settle v) := by
  match v, h with
  | .null, _ | .bool _, _ | .str _, _ | .num _, _ => rfl
  | .float d, h =>
    rw [RustNumbers] at h
    obtain ⟨d', h1, -⟩ := reread_float d h
    rw [reread, settle, h1]; rfl
  | .arr xs, h => rw [RustNumbers] at h; rw [reread, settle, rereadList_settle xs h]; rfl
  | .obj xs, h => rw [RustNumbers] at h; rw [reread, settle, rereadMembers_settle xs h]; rfl
theorem rereadList_settle (xs : List Json) (h : RustNumbersList xs) :
    rereadList xs = some (settleList xs) := by
  match xs, h with
  | [], _ => rfl
  | x :: xs, h =>
    rw [RustNumbersList] at h
    rw [rereadList, settleList, reread_settle x h.1, rereadList_settle xs h.2]; rfl
theorem rereadMembers_settle (xs : List (Str × Json)) (h : RustNumbersMembers xs) :
    rereadMembers xs = some (settleMembers xs) := by
  match xs, h with
  | [], _ => rfl
  | (k, x) :: xs, h =>
    rw [RustNumbersMembers] at h
    rw [rereadMembers, settleMembers, reread_settle x h.1, rereadMembers_settle xs h.2]; rfl
end

theorem settle_eq_iff (v : Json) (h : RustNumbers v) : settle v = v ↔ PlainNumbers v := by
  rw [← reread_plain v h, reread_settle v h, Option.some.injEq]

theorem settle_plain {v : Json} (h : PlainNumbers v) : settle v = v :=
  (settle_eq_iff v (rust_of_plain v h)).2 h

theorem near_settle (v : Json) (h : RustNumbers v) : Near v (settle v) := by
  obtain ⟨w, h1, h2⟩ := reread_near v h
  rw [reread_settle v h, Option.some.injEq] at h1
  rwa [h1]

theorem parse_settle (v : Json) (h : RustNumbers v) (hd : depth v ≤ maxDepth) : parse v.print = some (settle v) := by
  rw [parse_reread v h hd, reread_settle v h]

mutual
theorem near_rust (v w : Json) (h : RustNumbers v) (hn : Near v w) : RustNumbers w := by
  match v, h, hn with
  | .null, _, hn | .bool _, _, hn | .str _, _, hn => rw [Near] at hn; subst hn; trivial
  | .num _, h, hn => rw [Near] at hn; subst hn; exact h
  | .float d, h, hn => rw [Near] at hn; obtain ⟨d', rfl, hc⟩ := hn; rw [RustNumbers]; exact hc.1
  | .arr xs, h, hn =>
    rw [Near] at hn; rw [RustNumbers] at h
    obtain ⟨ys, rfl, hc⟩ := hn
    rw [RustNumbers]; exact near_rustList xs ys h hc
  | .obj xs, h, hn =>
    rw [Near] at hn; rw [RustNumbers] at h
    obtain ⟨ys, rfl, hc⟩ := hn
    rw [RustNumbers]; exact near_rustMembers xs ys h hc
theorem near_rustList (xs ys : List Json) (h : RustNumbersList xs) (hn : NearList xs ys) :
    RustNumbersList ys := by
  match xs, h, hn with
  | [], _, hn => rw [NearList] at hn; subst hn; trivial
  | x :: xs, h, hn =>
    rw [NearList] at hn; rw [RustNumbersList] at h
    obtain ⟨y, ys, rfl, h1, h2⟩ := hn
    rw [RustNumbersList]; exact ⟨near_rust x y h.1 h1, near_rustList xs ys h.2 h2⟩
theorem near_rustMembers (xs ys : List (Str × Json)) (h : RustNumbersMembers xs) (hn : NearMembers xs ys) :
    RustNumbersMembers ys := by
  match xs, h, hn with
  | [], _, hn => rw [NearMembers] at hn; subst hn; trivial
  | (k, x) :: xs, h, hn =>
    rw [NearMembers] at hn; rw [RustNumbersMembers] at h
    obtain ⟨y, ys, rfl, h1, h2⟩ := hn
    rw [RustNumbersMembers]; exact ⟨near_rust x y h.1 h1, near_rustMembers xs ys h.2 h2⟩
end

mutual
theorem normal_settle (v : Json) (h : Normal v) : Normal (settle v) := by
  match v, h with
  | .null, _ | .bool _, _ | .str _, _ | .num _, _ | .float _, _ => trivial
  | .arr xs, h => rw [Normal] at h; rw [settle, Normal]; exact normal_settleList xs h
  | .obj xs, h =>
    rw [Normal] at h; rw [settle, Normal]
    refine ⟨?_, normal_settleMembers xs h.2⟩
    rw [settleMembers_eq, List.pairwise_map]
    exact h.1
theorem normal_settleList (xs : List Json) (h : NormalList xs) : NormalList (settleList xs) := by
  match xs, h with
  | [], _ => trivial
  | x :: xs, h =>
    rw [NormalList] at h; rw [settleList, NormalList]
    exact ⟨normal_settle x h.1, normal_settleList xs h.2⟩
theorem normal_settleMembers (xs : List (Str × Json)) (h : NormalMembers xs) :
    NormalMembers (settleMembers xs) := by
  match xs, h with
  | [], _ => trivial
  | (k, x) :: xs, h =>
    rw [NormalMembers] at h; rw [settleMembers, NormalMembers]
    exact ⟨normal_settle x h.1, normal_settleMembers xs h.2⟩
end

theorem rust_settle {v : Json} (h : RustValue v) : RustValue (settle v) :=
  ⟨normal_settle v h.1, near_rust v _ h.2 (near_settle v h.2)⟩

theorem near_settleMembers (xs : List (Str × Json)) (h : ∀ p ∈ xs, RustNumbers p.2) :
    NearMembers xs (settleMembers xs) := by
  have := near_settle (.obj xs) (rust_obj h)
  rw [settle, Near] at this
  obtain ⟨ys, h1, h2⟩ := this
  rwa [Json.obj.inj h1]

theorem unique_settle {m : List (Str × Json)} (h : UniqueKeys m) : UniqueKeys (settleMembers m) := by
  rw [settleMembers_eq]
  unfold UniqueKeys at *
  rwa [List.map_map]

end Json

open Spec Serde Json

/-! ### Values -/

theorem settle_fits {n : Nat} {j : Json} (h : Fits n j) : settle j = j := settle_plain h.1

theorem settle_obj (kvs : List (Str × Json)) : settle (.obj kvs) = .obj (kvs.map fun p => (p.1, settle p.2)) := by
  rw [settle, settleMembers_eq]

theorem settle_serVec {α : Type} {f : α → Json} (g : α → α) (xs : List α)
    (h : ∀ a ∈ xs, settle (f a) = f (g a)) : settle (serVec f xs) = serVec f (xs.map g) := by
  rw [serVec, serVec, settle, settleList_eq, List.map_map, List.map_map]
  congr 1
  exact List.map_congr_left h

theorem settle_members {n : Nat} (kvs : List (Str × Json)) (h : ∀ p ∈ kvs, Fits n p.2) :
    kvs.map (fun p => (p.1, settle p.2)) = kvs := by
  conv_rhs => rw [← List.map_id kvs]
  exact List.map_congr_left fun p hp => by rw [settle_fits (h p hp)]; rfl

theorem forall₂_map {α : Type} {R : α → α → Prop} (g : α → α) (xs : List α) (h : ∀ a ∈ xs, R a (g a)) :
    List.Forall₂ R xs (xs.map g) := by
  induction xs with
  | nil => exact .nil
  | cons x xs ih => exact .cons (h x (by simp)) (ih fun a ha => h a (by simp [ha]))

/-- With the numbers as read again. -/
def LinkedDataContext.settle : LinkedDataContext → LinkedDataContext
  | .string s => .string s
  | .map m => .map (settleMembers m)

theorem LinkedDataContext.settle_ser (c : LinkedDataContext) : Json.settle c.ser = c.settle.ser := by
  cases c with
  | string s => rfl
  | map m =>
    simp only [ser, LinkedDataContext.settle, serMap, id]
    rw [settle_obj, settleMembers_eq]
    simp

theorem LinkedDataContext.settle_rust (c : LinkedDataContext) (h : RustContext c) :
    RustContext c.settle ∧ NearContext c c.settle := by
  cases c with
  | string s => exact ⟨trivial, rfl⟩
  | map m =>
    refine ⟨⟨unique_settle h.1, ?_⟩, _, rfl, near_settleMembers m fun p hp => (h.2 p hp).2⟩
    rw [settleMembers_eq]
    intro p hp
    obtain ⟨q, hq, rfl⟩ := List.mem_map.1 hp
    exact rust_settle (h.2 q hq)

/-- With the numbers as read again. -/
def CredentialFormatProfile.settle : CredentialFormatProfile → CredentialFormatProfile
  | .ldpVc ctx types cs order => .ldpVc (ctx.map LinkedDataContext.settle) types cs order
  | c => c

theorem CredentialFormatProfile.settle_ser (c : CredentialFormatProfile) (h : RustCredential c) :
    Json.settle c.ser = c.settle.ser := by
  cases c with
  | ldpVc ctx types cs order =>
    simp only [ser, CredentialFormatProfile.settle]
    rw [settle_obj, List.map_cons, List.map_cons, List.map_cons, settle_members _ (fits_subjects 0 _ _ _ _),
      settle_serVec LinkedDataContext.settle _ fun c _ => LinkedDataContext.settle_ser c,
      settle_fits (fits_strs 0 _), settle_fits (fits_str 0 _)]
  | jwtVcJson types cs order => exact settle_fits (fits_credential (n := 0) (.jwtVcJson types cs order) h)
  | jwtVcJsonLd types cs order => exact settle_fits (fits_credential (n := 0) (.jwtVcJsonLd types cs order) h)
  | msoMdoc d cs order => exact settle_fits (fits_credential (n := 0) (.msoMdoc d cs order) h)

theorem CredentialFormatProfile.settle_rust (c : CredentialFormatProfile) (h : RustCredential c) :
    RustCredential c.settle ∧ NearCredential c c.settle := by
  cases c with
  | ldpVc ctx types cs order =>
    refine ⟨⟨?_, h.2⟩, _, rfl, forall₂_map _ _ fun c hc => (LinkedDataContext.settle_rust c (h.1 c hc)).2⟩
    intro c hc
    obtain ⟨q, hq, rfl⟩ := List.mem_map.1 hc
    exact (LinkedDataContext.settle_rust q (h.1 q hq)).1
  | _ => exact ⟨h, rfl⟩

theorem CredentialFormatProfile.settle_members (c : CredentialFormatProfile) (h : RustCredential c) :
    c.members.map (fun p => (p.1, Json.settle p.2)) = c.settle.members := by
  have h1 := c.settle_ser h
  rw [show c.ser = .obj c.members by cases c <;> rfl, settle_obj,
    show c.settle.ser = .obj c.settle.members by cases c <;> rfl] at h1
  exact Json.obj.inj h1

/-- With the numbers as read again. -/
def CredentialOrId.settle : CredentialOrId → CredentialOrId
  | .credentialId s => .credentialId s
  | .credential c => .credential c.settle

/-- With the numbers as read again. -/
def CredentialOffer.settle (o : CredentialOffer) : CredentialOffer :=
  { o with credentials := o.credentials.map CredentialOrId.settle }

theorem CredentialOrId.settle_rust (c : CredentialOrId) (h : RustEntry c) :
    Json.settle c.ser = c.settle.ser ∧ RustEntry c.settle ∧ NearEntry c c.settle := by
  cases c with
  | credentialId s => exact ⟨rfl, trivial, rfl⟩
  | credential c => exact ⟨c.settle_ser h, (c.settle_rust h).1, _, rfl, (c.settle_rust h).2⟩

theorem CredentialOffer.settle_rust (o : CredentialOffer) (h : ∀ c ∈ o.credentials, RustEntry c) :
    Json.settle o.ser = o.settle.ser ∧ (∀ c ∈ o.settle.credentials, RustEntry c) ∧ NearOffer o o.settle := by
  refine ⟨?_, ?_, _, rfl, forall₂_map _ _ fun c hc => (c.settle_rust (h c hc)).2.2⟩
  · simp only [ser, CredentialOffer.settle]
    rw [settle_obj, List.map_cons, List.map_cons, List.map_cons, List.map_nil,
      settle_serVec CredentialOrId.settle _ fun c hc => (c.settle_rust (h c hc)).1,
      settle_fits (fits_str 0 _), settle_fits (fits_grants 0 _)]
  · intro c hc
    obtain ⟨q, hq, rfl⟩ := List.mem_map.1 hc
    exact (q.settle_rust (h q hq)).2.1

/-- With the numbers as read again. -/
def CredentialRequest.settle (r : CredentialRequest) : CredentialRequest := { r with format := r.format.settle }

theorem CredentialRequest.settle_rust (r : CredentialRequest) (h : RustCredential r.format) :
    Json.settle r.ser = r.settle.ser ∧ RustCredential r.settle.format ∧ NearRequest r r.settle := by
  refine ⟨?_, (r.format.settle_rust h).1, _, rfl, (r.format.settle_rust h).2⟩
  simp only [ser, CredentialRequest.settle]
  rw [settle_obj, List.map_append, r.format.settle_members h, List.map_cons, List.map_nil,
    settle_fits (fits_serOpt (n := 1) _ fun _ _ => fits_proof 0 _)]

/-- With the numbers as read again. -/
def CredentialFormatProfileOrEncoded.settle :
    CredentialFormatProfileOrEncoded → CredentialFormatProfileOrEncoded
  | .credentialFormatProfile f => .credentialFormatProfile f.settle
  | .encoded s => .encoded s

/-- With the numbers as read again. -/
def CredentialSuccessResponse.settle (r : CredentialSuccessResponse) : CredentialSuccessResponse :=
  { r with credential := r.credential.map CredentialFormatProfileOrEncoded.settle }

theorem CredentialSuccessResponse.settle_rust (r : CredentialSuccessResponse)
    (h : ∀ f, r.credential = some (.credentialFormatProfile f) → RustCredential f) :
    Json.settle r.ser = r.settle.ser ∧
      (∀ f, r.settle.credential = some (.credentialFormatProfile f) → RustCredential f) ∧
      NearResponse r r.settle := by
  obtain ⟨format, credential, token, nonce, expires⟩ := r
  refine ⟨?_, ?_, ?_⟩
  · simp only [ser, CredentialSuccessResponse.settle]
    have hc : Json.settle (serOpt CredentialFormatProfileOrEncoded.ser credential)
        = serOpt CredentialFormatProfileOrEncoded.ser (credential.map CredentialFormatProfileOrEncoded.settle) := by
      cases credential with
      | none => rfl
      | some c =>
        cases c with
        | encoded s => exact settle_fits (fits_obj (n := 0) (forall_cons (fits_str _ _) forall_nil))
        | credentialFormatProfile f =>
          simp only [serOpt, Option.map_some, CredentialFormatProfileOrEncoded.ser,
            CredentialFormatProfileOrEncoded.settle]
          rw [settle_obj, List.map_cons, List.map_nil, f.settle_ser (h f rfl)]
    rw [settle_obj, List.map_cons, List.map_cons, List.map_cons, List.map_cons, List.map_cons, List.map_nil, hc,
      settle_fits (fits_str 0 _), settle_fits (fits_serOpt (n := 0) _ fun _ _ => fits_str _ _),
      settle_fits (fits_serOpt (n := 0) _ fun _ _ => fits_str _ _),
      settle_fits (fits_serOpt (n := 0) (f := fun n : UInt32 => .num n.toNat) _ fun _ _ => fits_u32 _ _)]
  · intro f hf
    cases credential with
    | none => cases hf
    | some c =>
      cases c with
      | encoded s => cases hf
      | credentialFormatProfile g =>
        cases hf
        exact (g.settle_rust (h g rfl)).1
  · cases credential with
    | none => exact .inl rfl
    | some c =>
      cases c with
      | encoded s => exact .inl rfl
      | credentialFormatProfile g => exact .inr ⟨g, _, rfl, rfl, (g.settle_rust (h g rfl)).2⟩

/-- With the numbers as read again. -/
def CredentialSupported.settle (c : CredentialSupported) : CredentialSupported :=
  { c with format := c.format.settle }

theorem CredentialSupported.settle_rust (c : CredentialSupported) (h : RustCredential c.format) :
    Json.settle c.ser = c.settle.ser ∧ RustCredential c.settle.format ∧ NearSupported c c.settle := by
  refine ⟨?_, (c.format.settle_rust h).1, _, rfl, (c.format.settle_rust h).2⟩
  simp only [ser, CredentialSupported.settle]
  rw [settle_obj, List.map_append, c.format.settle_members h, Oid4vci.settle_members (n := 3)]
  exact forall_cons (fits_serOpt _ fun _ _ => fits_str _ _) (forall_cons
    (fits_serOpt _ fun _ _ => fits_strs _ _) (forall_cons (fits_serOpt _ fun _ _ => fits_strs _ _)
    (forall_cons (fits_serOpt _ fun _ _ => fits_serVec _ fun _ _ => fits_displayProperties _ _) forall_nil)))

/-- With the numbers as read again. -/
def CredentialIssuerMetadata.settle (m : CredentialIssuerMetadata) : CredentialIssuerMetadata :=
  { m with
    credentialsSupported := m.credentialsSupported.map CredentialSupported.settle
    additionalFields := some (settleMembers (m.additionalFields.getD [])) }

theorem CredentialIssuerMetadata.settle_rust (m : CredentialIssuerMetadata)
    (h : ∀ c ∈ m.credentialsSupported, RustCredential c.format)
    (ha : ∀ a ∈ m.additionalFields, ∀ p ∈ a, RustNumbers p.2) :
    Json.settle m.ser = m.settle.ser ∧ (∀ c ∈ m.settle.credentialsSupported, RustCredential c.format) ∧
      NearMetadata m m.settle := by
  refine ⟨?_, ?_, _, _, rfl, forall₂_map _ _ fun c hc => (c.settle_rust (h c hc)).2.2,
    near_settleMembers _ ?_⟩
  · simp only [ser, CredentialIssuerMetadata.settle]
    rw [settle_obj, List.map_append, List.map_cons, List.map_cons, List.map_cons, List.map_cons, List.map_cons,
      List.map_nil, settle_serVec CredentialSupported.settle _ fun c hc => (c.settle_rust (h c hc)).1,
      settle_fits (fits_str 0 _), settle_fits (fits_str 0 _),
      settle_fits (fits_serOpt (n := 0) _ fun _ _ => fits_str _ _),
      settle_fits (fits_serOpt (n := 0) _ fun _ _ => fits_str _ _), Option.getD_some, settleMembers_eq]
  · intro c hc
    obtain ⟨q, hq, rfl⟩ := List.mem_map.1 hc
    exact (q.settle_rust (h q hq)).2.1
  · cases hm : m.additionalFields with
    | none => exact forall_nil
    | some a => exact ha a hm

/-! ### Texts -/

/-- What is read from a text. -/
theorem read_iff {α : Type} {de : Json → Option α} {j j' : Json} {a : α} (hr : RustNumbers j)
    (hj : Json.settle j = j') (hd : de j' = some a) (b : α) :
    (Json.parse j.print).bind de = some b ↔ depth j ≤ 127 ∧ b = a := by
  by_cases hn : depth j ≤ 127
  · rw [parse_settle j hr hn, Option.bind_some, hj, hd]; simp [hn, eq_comm]
  · rw [parse_deep j hr (show maxDepth < _ by unfold maxDepth; omega)]; simp [hn]

/-- The value itself is read when its numbers survive. -/
theorem read_same_iff {α : Type} {ser : α → Json} {de : Json → Option α} {a a' : α} (hr : RustNumbers (ser a))
    (hj : Json.settle (ser a) = ser a') (hd : ∀ b, b = a ∨ b = a' → de (ser b) = some b) :
    (Json.parse (ser a).print).bind de = some a ↔ depth (ser a) ≤ 127 ∧ PlainNumbers (ser a) := by
  rw [read_iff hr hj (hd a' (.inr rfl)), and_congr_right_iff]
  intro _
  rw [← settle_eq_iff _ hr, hj]
  constructor
  · intro h; rw [← h]
  · intro h
    have := hd a' (.inr rfl)
    rw [h, hd a (.inl rfl)] at this
    exact Option.some.inj this

theorem CredentialOffer.text_iff (o : CredentialOffer) (h : ∀ c ∈ o.credentials, RustEntry c) :
    (Json.parse o.ser.print).bind CredentialOffer.de = some o ↔ depth o.ser ≤ 127 ∧ PlainNumbers o.ser :=
  read_same_iff (rust_offer o h) (o.settle_rust h).1 (by
    rintro b (rfl | rfl)
    · exact CredentialOffer.de_ser _ h
    · exact CredentialOffer.de_ser _ (o.settle_rust h).2.1)

theorem CredentialOffer.text_near (o : CredentialOffer) (h : ∀ c ∈ o.credentials, RustEntry c)
    (hd : depth o.ser ≤ 127) :
    ∃ o', (Json.parse o.ser.print).bind CredentialOffer.de = some o' ∧ NearOffer o o' :=
  ⟨o.settle, (read_iff (rust_offer o h) (o.settle_rust h).1
    (CredentialOffer.de_ser _ (o.settle_rust h).2.1) _).2 ⟨hd, rfl⟩, (o.settle_rust h).2.2⟩

theorem CredentialRequest.text_iff (r : CredentialRequest) (h : RustCredential r.format) :
    (Json.parse r.ser.print).bind CredentialRequest.de = some r ↔ depth r.ser ≤ 127 ∧ PlainNumbers r.ser :=
  read_same_iff (rust_request r h) (r.settle_rust h).1 (by
    rintro b (rfl | rfl)
    · exact CredentialRequest.de_ser _ h
    · exact CredentialRequest.de_ser _ (r.settle_rust h).2.1)

theorem CredentialRequest.text_near (r : CredentialRequest) (h : RustCredential r.format)
    (hd : depth r.ser ≤ 127) :
    ∃ r', (Json.parse r.ser.print).bind CredentialRequest.de = some r' ∧ NearRequest r r' :=
  ⟨r.settle, (read_iff (rust_request r h) (r.settle_rust h).1
    (CredentialRequest.de_ser _ (r.settle_rust h).2.1) _).2 ⟨hd, rfl⟩, (r.settle_rust h).2.2⟩

theorem CredentialSuccessResponse.text_iff (r : CredentialSuccessResponse)
    (h : ∀ f, r.credential = some (.credentialFormatProfile f) → RustCredential f) :
    (Json.parse r.ser.print).bind CredentialSuccessResponse.de = some r ↔
      depth r.ser ≤ 127 ∧ PlainNumbers r.ser :=
  read_same_iff (rust_successResponse r h) (r.settle_rust h).1 (by
    rintro b (rfl | rfl)
    · exact CredentialSuccessResponse.de_ser _ h
    · exact CredentialSuccessResponse.de_ser _ (r.settle_rust h).2.1)

theorem CredentialSuccessResponse.text_near (r : CredentialSuccessResponse)
    (h : ∀ f, r.credential = some (.credentialFormatProfile f) → RustCredential f) (hd : depth r.ser ≤ 127) :
    ∃ r', (Json.parse r.ser.print).bind CredentialSuccessResponse.de = some r' ∧ NearResponse r r' :=
  ⟨r.settle, (read_iff (rust_successResponse r h) (r.settle_rust h).1
    (CredentialSuccessResponse.de_ser _ (r.settle_rust h).2.1) _).2 ⟨hd, rfl⟩, (r.settle_rust h).2.2⟩

/-- The additional members stay apart from the named ones. -/
theorem CredentialIssuerMetadata.settle_de (m : CredentialIssuerMetadata)
    (h : ∀ c ∈ m.credentialsSupported, RustCredential c.format)
    (ha : ∀ a ∈ m.additionalFields, UniqueKeys a ∧ ∀ p ∈ a, RustValue p.2 ∧ p.1 ∉ metadataFields) :
    CredentialIssuerMetadata.de m.settle.ser = some m.settle := by
  have hr := m.settle_rust h fun a hm p hp => ((ha a hm).2 p hp).1.2
  refine (CredentialIssuerMetadata.de_ser m.settle hr.2.1 ?_).trans rfl
  rintro _ ⟨⟩
  cases hm : m.additionalFields with
  | none => exact ⟨by simp [UniqueKeys, settleMembers], by simp [settleMembers]⟩
  | some a =>
    refine ⟨unique_settle (ha a hm).1, ?_⟩
    intro p hp
    rw [Option.getD_some, settleMembers_eq] at hp
    obtain ⟨q, hq, rfl⟩ := List.mem_map.1 hp
    exact ⟨normal_settle _ ((ha a hm).2 q hq).1.1, ((ha a hm).2 q hq).2⟩

end Oid4vci
