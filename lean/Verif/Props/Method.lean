import Verif.Spec.Method
import Verif.Props.Document
import Verif.Props.Jwk
import Mathlib.Tactic.FinCases

/-! C130: the key of a verification method. -/

namespace Oid4vci

open Spec CredentialIssuer

section
variable (R : JwkRules) (M : MethodRules)

theorem hasMaterial_jwk (m : MethodMap) (a : Option SsiAlg) (k : JwkKey) :
    HasMaterial m (.jwk a k) ↔ m.publicKeyJwk = some (a, k) := ⟨fun h => by cases h; assumption, .jwk a k⟩

theorem hasMaterial_base58 (m : MethodMap) (s : Str) : HasMaterial m (.base58 s) ↔ m.publicKeyBase58 = some s :=
  ⟨fun h => by cases h; assumption, .base58 s⟩

theorem hasMaterial_hex (m : MethodMap) (v : Json) : HasMaterial m (.hex v) ↔ m.property (str! "publicKeyHex") = some v :=
  ⟨fun h => by cases h; assumption, .hex v⟩

theorem hasMaterial_multibase (m : MethodMap) (v : Json) :
    HasMaterial m (.multibase v) ↔ m.property (str! "publicKeyMultibase") = some v ∧ v ≠ .null :=
  ⟨fun h => by cases h; exact ⟨by assumption, by assumption⟩, fun h => .multibase v h.1 h.2⟩

theorem multibase_none (m : MethodMap) : m.multibase M = .ok none ↔ ∀ v, ¬ HasMaterial m (.multibase v) := by
  simp only [hasMaterial_multibase]
  unfold MethodMap.multibase
  cases h : m.property (str! "publicKeyMultibase") with
  | none => simp
  | some v => cases v <;> simp

theorem multibase_some (m : MethodMap) (s : Str) :
    m.multibase M = .ok (some s) ↔ HasMaterial m (.multibase (.str s)) := by
  simp only [hasMaterial_multibase]
  unfold MethodMap.multibase
  cases h : m.property (str! "publicKeyMultibase") with
  | none => simp
  | some v => cases v <;> simp

theorem multibase_error (m : MethodMap) (msg : Str) : m.multibase M = .error msg ↔
    msg = M.multibaseText ∧ ∃ v, HasMaterial m (.multibase v) ∧ ∀ s, v ≠ .str s := by
  simp only [hasMaterial_multibase]
  unfold MethodMap.multibase
  cases h : m.property (str! "publicKeyMultibase") with
  | none => simp
  | some v => cases v <;> simp [eq_comm]

theorem jwk_none (m : MethodMap) : m.publicKeyJwk = none ↔ ∀ a k, ¬ HasMaterial m (.jwk a k) := by
  simp only [hasMaterial_jwk]
  cases m.publicKeyJwk with
  | none => simp
  | some p => exact ⟨nofun, fun h => absurd rfl (h p.1 p.2)⟩

theorem base58_none (m : MethodMap) : m.publicKeyBase58 = none ↔ ∀ s, ¬ HasMaterial m (.base58 s) := by
  simp only [hasMaterial_base58]
  cases m.publicKeyBase58 <;> simp

theorem hex_none (m : MethodMap) : m.property (str! "publicKeyHex") = none ↔ ∀ v, ¬ HasMaterial m (.hex v) := by
  simp only [hasMaterial_hex]
  cases m.property (str! "publicKeyHex") <;> simp

theorem material_cases (m : MethodMap) (P : KeyMaterial → Prop) : (∀ km, HasMaterial m km → P km) ↔
    (∀ a k, HasMaterial m (.jwk a k) → P (.jwk a k)) ∧ (∀ s, HasMaterial m (.base58 s) → P (.base58 s)) ∧
    (∀ v, HasMaterial m (.hex v) → P (.hex v)) ∧ ∀ v, HasMaterial m (.multibase v) → P (.multibase v) := by
  constructor
  · intro h
    exact ⟨fun a k => h _, fun s => h _, fun v => h _, fun v => h _⟩
  · rintro ⟨h1, h2, h3, h4⟩ km h
    cases km with
    | jwk a k => exact h1 a k h
    | base58 s => exact h2 s h
    | hex v => exact h3 v h
    | multibase v => exact h4 v h

theorem except_bind_ok {ε α β : Type} {e : Except ε α} {f : α → Except ε β} {b : β} :
    e >>= f = .ok b ↔ ∃ a, e = .ok a ∧ f a = .ok b := by
  cases e <;> simp [bind, Except.bind]

section
variable {m : MethodMap}

theorem only_jwk {a : Option SsiAlg} {k : JwkKey} (hj : m.publicKeyJwk = some (a, k)) (hb : m.publicKeyBase58 = none)
    (hx : m.property (str! "publicKeyHex") = none) (hm : m.multibase M = .ok none) :
    ∀ km, HasMaterial m km → km = .jwk a k := by
  refine (material_cases m _).2 ⟨?_, ?_, ?_, ?_⟩
  · intro a' k' h
    have := hj.symm.trans ((hasMaterial_jwk m a' k').1 h)
    cases this; rfl
  · intro s h; exact absurd h ((base58_none m).1 hb s)
  · intro s h; exact absurd h ((hex_none m).1 hx s)
  · intro s h; exact absurd h ((multibase_none M m).1 hm s)

theorem only_base58 {s : Str} (hj : m.publicKeyJwk = none) (hb : m.publicKeyBase58 = some s)
    (hx : m.property (str! "publicKeyHex") = none) (hm : m.multibase M = .ok none) :
    ∀ km, HasMaterial m km → km = .base58 s := by
  refine (material_cases m _).2 ⟨?_, ?_, ?_, ?_⟩
  · intro a' k' h; exact absurd h ((jwk_none m).1 hj a' k')
  · intro s' h
    have := hb.symm.trans ((hasMaterial_base58 m s').1 h)
    cases this; rfl
  · intro s h; exact absurd h ((hex_none m).1 hx s)
  · intro s h; exact absurd h ((multibase_none M m).1 hm s)

theorem only_hex {v : Json} (hj : m.publicKeyJwk = none) (hb : m.publicKeyBase58 = none)
    (hx : m.property (str! "publicKeyHex") = some v) (hm : m.multibase M = .ok none) :
    ∀ km, HasMaterial m km → km = .hex v := by
  refine (material_cases m _).2 ⟨?_, ?_, ?_, ?_⟩
  · intro a' k' h; exact absurd h ((jwk_none m).1 hj a' k')
  · intro s h; exact absurd h ((base58_none m).1 hb s)
  · intro v' h
    have := hx.symm.trans ((hasMaterial_hex m v').1 h)
    cases this; rfl
  · intro s h; exact absurd h ((multibase_none M m).1 hm s)

theorem only_multibase {s : Str} (hj : m.publicKeyJwk = none) (hb : m.publicKeyBase58 = none)
    (hx : m.property (str! "publicKeyHex") = none) (hm : m.multibase M = .ok (some s)) :
    ∀ km, HasMaterial m km → km = .multibase (.str s) := by
  refine (material_cases m _).2 ⟨?_, ?_, ?_, ?_⟩
  · intro a' k' h; exact absurd h ((jwk_none m).1 hj a' k')
  · intro s h; exact absurd h ((base58_none m).1 hb s)
  · intro s h; exact absurd h ((hex_none m).1 hx s)
  · intro v' h
    have := ((hasMaterial_multibase m _).1 ((multibase_some M m s).1 hm)).1.symm.trans ((hasMaterial_multibase m v').1 h).1
    cases this; rfl

theorem no_material (hj : m.publicKeyJwk = none) (hb : m.publicKeyBase58 = none)
    (hx : m.property (str! "publicKeyHex") = none) (hm : m.multibase M = .ok none) : ∀ km, ¬ HasMaterial m km :=
  (material_cases m _).2 ⟨fun a k h => absurd h ((jwk_none m).1 hj a k), fun s h => absurd h ((base58_none m).1 hb s),
    fun v h => absurd h ((hex_none m).1 hx v), fun v h => absurd h ((multibase_none M m).1 hm v)⟩

end

/-- C130. The key that is taken from a verification method is what its only key material means. -/
theorem C130_method (m : MethodMap) (a : Option SsiAlg) (k : JwkKey) : m.get M = .ok (a, k) ↔ MethodKey M m a k := by
  unfold MethodKey
  constructor
  · intro h
    unfold MethodMap.get at h
    obtain ⟨mb, hm, h⟩ := except_bind_ok.1 h
    split at h
    · rename_i p hj hb hx
      cases h
      exact ⟨.jwk a k, .jwk a k hj, only_jwk M hj hb hx hm, .jwk a k⟩
    · rename_i s hj hb hx
      obtain ⟨b, h1, h2⟩ := except_bind_ok.1 h
      exact ⟨.base58 s, .base58 s hb, only_base58 M hj hb hx hm, .base58 s b a k h1 h2⟩
    · rename_i s hj hb hx
      obtain ⟨b, h1, h2⟩ := except_bind_ok.1 h
      exact ⟨.hex (.str s), .hex _ hx, only_hex M hj hb hx hm, .hex s b a k h1 h2⟩
    · cases h
    · rename_i s hj hb hx
      obtain ⟨b, h1, h2⟩ := except_bind_ok.1 h
      exact ⟨.multibase (.str s), (multibase_some M m s).1 hm, only_multibase M hj hb hx hm, .multibase s b a k h1 h2⟩
    · cases h
    · cases h
  · rintro ⟨km, h1, h2, h3⟩
    have nj : (∀ a k, km ≠ .jwk a k) → m.publicKeyJwk = none := fun h =>
      (jwk_none m).2 fun a k hm => h a k (h2 _ hm).symm
    have nb : (∀ s, km ≠ .base58 s) → m.publicKeyBase58 = none := fun h =>
      (base58_none m).2 fun s hm => h s (h2 _ hm).symm
    have nx : (∀ v, km ≠ .hex v) → m.property (str! "publicKeyHex") = none := fun h =>
      (hex_none m).2 fun v hm => h v (h2 _ hm).symm
    have nm : (∀ v, km ≠ .multibase v) → m.multibase M = .ok none := fun h =>
      (multibase_none M m).2 fun v hm => h v (h2 _ hm).symm
    unfold MethodMap.get
    cases h3 with
    | jwk =>
      rw [nb (by simp), nx (by simp), nm (by simp), (hasMaterial_jwk m a k).1 h1]; rfl
    | base58 s b _ _ hb hr =>
      rw [nj (by simp), nx (by simp), nm (by simp), (hasMaterial_base58 m s).1 h1]
      exact except_bind_ok.2 ⟨_, rfl, except_bind_ok.2 ⟨b, hb, hr⟩⟩
    | hex s b _ _ hb hr =>
      rw [nj (by simp), nb (by simp), nm (by simp), (hasMaterial_hex m _).1 h1]
      exact except_bind_ok.2 ⟨_, rfl, except_bind_ok.2 ⟨b, hb, hr⟩⟩
    | multibase s b _ _ hb hr =>
      rw [nj (by simp), nb (by simp), nx (by simp), (multibase_some M m s).2 h1]
      exact except_bind_ok.2 ⟨_, rfl, except_bind_ok.2 ⟨b, hb, hr⟩⟩

/-- C130. A method without key material is refused as such; one with material of two forms too. -/
theorem C130_refused (m : MethodMap) :
    ((∀ km, ¬ HasMaterial m km) → m.get M = .error M.missing) ∧
    ∀ km km', HasMaterial m km → HasMaterial m km' → km ≠ km' →
      m.get M = .error M.multiple ∨ (m.get M = .error M.multibaseText ∧ ∃ v, HasMaterial m (.multibase v) ∧ ∀ s, v ≠ .str s) := by
  constructor
  · intro h
    unfold MethodMap.get
    rw [(jwk_none m).2 fun _ _ => h _, (base58_none m).2 fun _ => h _, (hex_none m).2 fun _ => h _,
      (multibase_none M m).2 fun _ => h _]
    rfl
  · intro km km' h h' hn
    cases hm : m.multibase M with
    | error msg =>
      obtain ⟨rfl, hv⟩ := (multibase_error M m msg).1 hm
      refine .inr ⟨?_, hv⟩
      unfold MethodMap.get
      rw [hm]; rfl
    | ok mb =>
      refine .inl ?_
      cases hg : m.get M with
      | ok p =>
        obtain ⟨km₀, -, h2, -⟩ := (C130_method M m p.1 p.2).1 hg
        exact absurd ((h2 _ h).trans (h2 _ h').symm) hn
      | error e =>
        have one : ∀ km₀, ¬ ∀ km, HasMaterial m km → km = km₀ := fun _ h2 =>
          hn ((h2 _ h).trans (h2 _ h').symm)
        unfold MethodMap.get at hg
        rw [hm] at hg
        simp only [bind, Except.bind] at hg
        split at hg
        · rename_i hj hb hx; exact absurd (only_jwk M hj hb hx hm) (one _)
        · rename_i hj hb hx; exact absurd (only_base58 M hj hb hx hm) (one _)
        · rename_i hj hb hx; exact absurd (only_hex M hj hb hx hm) (one _)
        · rename_i hj hb hx; exact absurd (only_hex M hj hb hx hm) (one _)
        · rename_i hj hb hx; exact absurd (only_multibase M hj hb hx hm) (one _)
        · rename_i hj hb hx; exact absurd h (no_material M hj hb hx hm _)
        · exact hg.symm

theorem except_bind_error {ε α β : Type} {e : Except ε α} {f : α → Except ε β} {b : ε} :
    e >>= f = .error b ↔ e = .error b ∨ ∃ a, e = .ok a ∧ f a = .error b := by
  cases e <;> simp [bind, Except.bind]

/-- C130. What is reported of a verification method without a key: exactly one of the four reasons. -/
theorem C130_reported (m : MethodMap) (e : Str) : m.get M = .error e ↔ MethodError M m e := by
  constructor
  · intro h
    cases hm : m.multibase M with
    | error msg =>
      obtain ⟨rfl, v, h1, h2⟩ := (multibase_error M m msg).1 hm
      unfold MethodMap.get at h
      rw [hm] at h
      cases h
      exact .noMultibase v h1 h2
    | ok mb =>
      have texts : ∀ v, HasMaterial m (.multibase v) → ∃ s, v = .str s := by
        intro v hv
        by_contra hn
        have := (multibase_error M m M.multibaseText).2 ⟨rfl, v, hv, fun s hs => hn ⟨s, hs⟩⟩
        rw [hm] at this; cases this
      by_cases h0 : ∀ km, ¬ HasMaterial m km
      · have := (C130_refused M m).1 h0
        rw [h] at this; cases this
        exact .missing h0
      · push Not at h0
        obtain ⟨km, hk⟩ := h0
        by_cases h1 : ∀ km', HasMaterial m km' → km' = km
        · refine .material km e hk h1 ?_
          have nj : (∀ a k, km ≠ .jwk a k) → m.publicKeyJwk = none := fun h =>
            (jwk_none m).2 fun a k hm => h a k (h1 _ hm).symm
          have nb : (∀ s, km ≠ .base58 s) → m.publicKeyBase58 = none := fun h =>
            (base58_none m).2 fun s hm => h s (h1 _ hm).symm
          have nx : (∀ v, km ≠ .hex v) → m.property (str! "publicKeyHex") = none := fun h =>
            (hex_none m).2 fun v hm => h v (h1 _ hm).symm
          have nm : (∀ v, km ≠ .multibase v) → m.multibase M = .ok none := fun h =>
            (multibase_none M m).2 fun v hm => h v (h1 _ hm).symm
          unfold MethodMap.get at h
          cases hk with
          | jwk a k hj =>
            rw [nb (by simp), nx (by simp), nm (by simp), hj] at h
            cases h
          | base58 s hb =>
            rw [nj (by simp), nx (by simp), nm (by simp), hb] at h
            rcases except_bind_error.1 (show M.base58 s >>= M.raw m.type = .error e from h) with h | ⟨b, h3, h4⟩
            · exact .base58 s e h
            · exact .base58Key s e b h3 h4
          | hex v hx =>
            rw [nj (by simp), nb (by simp), nm (by simp), hx] at h
            by_cases hv : ∃ s, v = .str s
            · obtain ⟨s, rfl⟩ := hv
              rcases except_bind_error.1 (show M.hex s >>= M.raw m.type = .error e from h) with h | ⟨b, h3, h4⟩
              · exact .hex s e h
              · exact .hexKey s e b h3 h4
            · push Not at hv
              have : e = M.hexText := by
                cases v with
                | str s => exact absurd rfl (hv s)
                | _ => cases h; rfl
              exact this ▸ .noText v hv
          | multibase v hv hn =>
            obtain ⟨s, rfl⟩ := texts v (.multibase v hv hn)
            rw [nj (by simp), nb (by simp), nx (by simp), (multibase_some M m s).2 (.multibase _ hv hn)] at h
            rcases except_bind_error.1 (show M.multibase s >>= M.raw m.type = .error e from h) with h | ⟨b, h3, h4⟩
            · exact .multibase s e h
            · exact .multibaseKey s e b h3 h4
        · push Not at h1
          obtain ⟨km', hk', hn⟩ := h1
          rcases (C130_refused M m).2 km km' hk hk' (Ne.symm hn) with h2 | ⟨-, v, h2, h3⟩
          · rw [h] at h2; cases h2
            exact .multiple km km' hk hk' (Ne.symm hn) texts
          · obtain ⟨s, hs⟩ := texts v h2
            exact absurd hs (h3 s)
  · intro h
    cases h with
    | missing h => exact (C130_refused M m).1 h
    | noMultibase v h1 h2 =>
      unfold MethodMap.get
      rw [(multibase_error M m _).2 ⟨rfl, v, h1, h2⟩]; rfl
    | multiple km km' h1 h2 h3 h4 =>
      rcases (C130_refused M m).2 km km' h1 h2 h3 with h | ⟨-, v, h5, h6⟩
      · exact h
      · obtain ⟨s, hs⟩ := h4 v h5
        exact absurd hs (h6 s)
    | material km e h1 h2 h3 =>
      have nj : (∀ a k, km ≠ .jwk a k) → m.publicKeyJwk = none := fun h =>
        (jwk_none m).2 fun a k hm => h a k (h2 _ hm).symm
      have nb : (∀ s, km ≠ .base58 s) → m.publicKeyBase58 = none := fun h =>
        (base58_none m).2 fun s hm => h s (h2 _ hm).symm
      have nx : (∀ v, km ≠ .hex v) → m.property (str! "publicKeyHex") = none := fun h =>
        (hex_none m).2 fun v hm => h v (h2 _ hm).symm
      have nm : (∀ v, km ≠ .multibase v) → m.multibase M = .ok none := fun h =>
        (multibase_none M m).2 fun v hm => h v (h2 _ hm).symm
      unfold MethodMap.get
      cases h3 with
      | base58 s _ hb =>
        rw [nj (by simp), nx (by simp), nm (by simp), (hasMaterial_base58 m s).1 h1]
        exact except_bind_error.2 (.inr ⟨_, rfl, except_bind_error.2 (.inl hb)⟩)
      | base58Key s _ b hb hr =>
        rw [nj (by simp), nx (by simp), nm (by simp), (hasMaterial_base58 m s).1 h1]
        exact except_bind_error.2 (.inr ⟨_, rfl, except_bind_error.2 (.inr ⟨b, hb, hr⟩)⟩)
      | noText v hs =>
        rw [nj (by simp), nb (by simp), nm (by simp), (hasMaterial_hex m _).1 h1]
        cases v with
        | str s => exact absurd rfl (hs s)
        | _ => rfl
      | hex s _ hb =>
        rw [nj (by simp), nb (by simp), nm (by simp), (hasMaterial_hex m _).1 h1]
        exact except_bind_error.2 (.inr ⟨_, rfl, except_bind_error.2 (.inl hb)⟩)
      | hexKey s _ b hb hr =>
        rw [nj (by simp), nb (by simp), nm (by simp), (hasMaterial_hex m _).1 h1]
        exact except_bind_error.2 (.inr ⟨_, rfl, except_bind_error.2 (.inr ⟨b, hb, hr⟩)⟩)
      | multibase s _ hb =>
        rw [nj (by simp), nb (by simp), nx (by simp), (multibase_some M m s).2 h1]
        exact except_bind_error.2 (.inr ⟨_, rfl, except_bind_error.2 (.inl hb)⟩)
      | multibaseKey s _ b hb hr =>
        rw [nj (by simp), nb (by simp), nx (by simp), (multibase_some M m s).2 h1]
        exact except_bind_error.2 (.inr ⟨_, rfl, except_bind_error.2 (.inr ⟨b, hb, hr⟩)⟩)

/-- C130. Only the type and the key material count: methods which agree there have the same key. -/
theorem C130_material (m m' : MethodMap) (ht : m.type = m'.type) (h : ∀ km, HasMaterial m km ↔ HasMaterial m' km)
    (a : Option SsiAlg) (k : JwkKey) : m.get M = .ok (a, k) ↔ m'.get M = .ok (a, k) := by
  rw [C130_method, C130_method]
  unfold MethodKey
  simp only [h, ht]

/-- C130. The key for a key proof with a key id: that of the only key material of the first verification method with that
id. -/
theorem C130_key (rules : SelectRules) (hec : ∀ crv x y d, R.inferred (.ec crv x y d) ≠ some SsiAlg.edDSA) (x : Ext)
    (h : ProofJwtHeader) (d : Document MethodMap) (kid : Str) (hk : h.additionalHeader = some (.keyId kid)) (key : Bytes)
    (alg : ProofJwtAlgorithm) :
    h.extractKeyAndAlg (withMethods rules R M x) (some d) = .ok (key, alg) ↔
      alg = h.alg ∧ str! "did:" <+: kid ∧
        ∃ m a k, FirstMethod rules d kid m ∧ MethodKey M m a k ∧ UsedBytes a k key := by
  refine (C126_key rules (withMethodMaps rules R M x) h d kid hk key alg).trans (and_congr_right fun _ => and_congr_right fun _ => ?_)
  refine exists_congr fun m => ?_
  constructor
  · rintro ⟨jwk, h1, h2, h3⟩
    obtain ⟨p, hp, hq⟩ := except_bind_ok.1 (show MethodMap.getJwk R M m = .ok jwk from h2)
    cases hq
    exact ⟨p.1, p.2, h1, (C130_method M m _ _).1 hp, (usedBytes_iff R hec _ _ _).1 h3⟩
  · rintro ⟨a, k, h1, h2, h3⟩
    refine ⟨R.shown a k, h1, ?_, (usedBytes_iff R hec _ _ _).2 h3⟩
    exact except_bind_ok.2 ⟨(a, k), (C130_method M m _ _).2 h2, rfl⟩

/-- C130. A key gives the same whether its JWK stands in the header or in the DID document. -/
theorem C130_inline (rules : SelectRules) (x : Ext) (typ : Str) (alg : ProofJwtAlgorithm) (d : Document MethodMap)
    (doc : Option (Document MethodMap)) (kid s : Str) (v : Json) (a : Option SsiAlg) (k : JwkKey) (hs : JsonText v s)
    (hd : depth v ≤ 127) (hj : JwkDoc R v a k) (hk : str! "did:" <+: kid) (m : MethodMap) (hm : FirstMethod rules d kid m)
    (ho : ∀ km, HasMaterial m km ↔ km = .jwk a k) :
    ProofJwtHeader.extractKeyAndAlg (withMethods rules R M x) ⟨typ, alg, some (.jwk s)⟩ doc =
      ProofJwtHeader.extractKeyAndAlg (withMethods rules R M x) ⟨typ, alg, some (.keyId kid)⟩ (some d) := by
  have hr : (withMethods rules R M x).parseJwk s = .ok (R.shown a k) := (jwkRead_iff R s _).2 ⟨v, a, k, hs, hd, hj, rfl⟩
  have hg : (withMethods rules R M x).getJwk m = .ok (R.shown a k) :=
    except_bind_ok.2 ⟨(a, k), (C130_method M m a k).2 ⟨.jwk a k, (ho _).2 rfl, fun km h => (ho km).1 h, .jwk a k⟩, rfl⟩
  obtain ⟨u, hu⟩ : ∃ u, Did.parse kid = .ok u := by
    cases hp : Did.parse kid with
    | ok u => exact ⟨u, rfl⟩
    | error e => exact absurd hk ((Did.parse_error _ _).1 hp).1
  have hu' : (withMethods rules R M x).didUrl kid = .ok u := hu
  have hsel : (withMethods rules R M x).select d u = .verificationMethod m := (Document.select_method rules d hu m).2 hm
  unfold ProofJwtHeader.extractKeyAndAlg
  simp only [hr, hu', hsel, hg]

end

/-! ### Examples -/

namespace Ex

/-- Rules that decode a few texts, for one type of methods. -/
def methodRules : MethodRules where
  base58 s := if s = str! "2g" then .ok [97] else .error (str! "bad base58")
  hex s := if s = str! "61" ∨ s = str! "0x61" then .ok [97] else .error (str! "bad hex")
  multibase s := if s = str! "z2g" then .ok [97] else .error (str! "bad multibase")
  raw t b :=
    if t = str! "Ed25519VerificationKey2018" then .ok (none, .okp (str! "Ed25519") b none)
    else .error (str! "unsupported type")
  missing := str! "missing key"
  multiple := str! "multiple key material"
  hexText := str! "no hex string"
  multibaseText := str! "no multibase string"

/-- A method of that type with these properties. -/
def methodMap (jwk : Option (Option SsiAlg × JwkKey)) (base58 : Option Str) (ps : List (Str × Json)) : MethodMap :=
  ⟨str! "Ed25519VerificationKey2018", jwk, base58, fun n => (ps.find? fun p => p.1 = n).map Prod.snd⟩

/-- A document with one method. -/
def methodDocument (m : MethodMap) : Document MethodMap :=
  ⟨str! "did:example:h", some [.method (str! "did:example:h#k") m], none, none, none, none, none, none⟩

theorem first_methodDocument (rules : SelectRules) (m : MethodMap) :
    FirstMethod rules (methodDocument m) (str! "did:example:h#k") m :=
  (Document.select_method rules _ (u := ⟨str! "did:example:h", [], none, some (str! "k")⟩) (by decide +kernel) m).1
    (by obtain ⟨a, b⟩ := rules; cases a <;> cases b <;> rfl)

end Ex

/-- C130_method: the same key in each of the four forms; `null` as multibase is none. -/
example : ∀ m ∈ [Ex.methodMap (some (none, .okp (str! "Ed25519") [97] none)) none [],
      Ex.methodMap none (some (str! "2g")) [(str! "publicKeyMultibase", .null)],
      Ex.methodMap none none [(str! "publicKeyHex", .str (str! "0x61"))],
      Ex.methodMap none none [(str! "publicKeyMultibase", .str (str! "z2g"))]],
    MethodKey Ex.methodRules m none (.okp (str! "Ed25519") [97] none) := by
  intro m hm
  refine (C130_method _ m _ _).1 ?_
  fin_cases hm <;> rfl

/-- C130_refused: no material, two forms, and `null` as hexadecimal text, which counts. -/
example :
    (Ex.methodMap none none [(str! "blockchainAccountId", .str [])]).get Ex.methodRules = .error (str! "missing key") ∧
    (Ex.methodMap none (some (str! "2g")) [(str! "publicKeyHex", .str (str! "61"))]).get Ex.methodRules =
      .error (str! "multiple key material") ∧
    (Ex.methodMap none (some (str! "2g")) [(str! "publicKeyHex", .null)]).get Ex.methodRules =
      .error (str! "multiple key material") ∧
    (Ex.methodMap none (some (str! "2g")) [(str! "publicKeyMultibase", .num 1)]).get Ex.methodRules =
      .error (str! "no multibase string") := ⟨rfl, rfl, rfl, rfl⟩

/-- C130_refused for a method with two forms. -/
example : HasMaterial (Ex.methodMap none (some (str! "2g")) [(str! "publicKeyHex", .null)]) (.base58 (str! "2g")) ∧
    HasMaterial (Ex.methodMap none (some (str! "2g")) [(str! "publicKeyHex", .null)]) (.hex .null) :=
  ⟨.base58 _ rfl, .hex _ rfl⟩

/-- C130_reported: a hexadecimal text that is none, one that does not decode, and bytes that are no key of their type. -/
example :
    MethodError Ex.methodRules (Ex.methodMap none none [(str! "publicKeyHex", .num 61)]) (str! "no hex string") ∧
    MethodError Ex.methodRules (Ex.methodMap none none [(str! "publicKeyHex", .str (str! "6"))]) (str! "bad hex") ∧
    MethodError Ex.methodRules { Ex.methodMap none (some (str! "2g")) [] with type := str! "Unknown" }
      (str! "unsupported type") :=
  ⟨(C130_reported _ _ _).1 rfl, (C130_reported _ _ _).1 rfl, (C130_reported _ _ _).1 rfl⟩

/-- C130_material: a property that is no key material. -/
example : (Ex.methodMap none (some (str! "2g")) []).get Ex.methodRules = .ok (none, .okp (str! "Ed25519") [97] none) ↔
    (Ex.methodMap none (some (str! "2g")) [(str! "blockchainAccountId", .num 7)]).get Ex.methodRules =
      .ok (none, .okp (str! "Ed25519") [97] none) := by
  refine C130_material _ _ _ rfl (fun km => ?_) _ _
  cases km <;>
    simp [hasMaterial_jwk, hasMaterial_base58, hasMaterial_hex, hasMaterial_multibase, Ex.methodMap]

/-- C130_key. -/
example (rules : SelectRules) : (Ex.headerOf (str! "did:example:h#k")).extractKeyAndAlg
      (withMethods rules Ex.jwkRules Ex.methodRules Ex.ext)
      (some (Ex.methodDocument (Ex.methodMap none (some (str! "2g")) []))) = .ok ([97], Ex.header.alg) :=
  (C130_key _ _ rules Ex.jwkRules_ec Ex.ext _ _ _ rfl _ _).2 ⟨rfl, by decide, _, none, .okp (str! "Ed25519") [97] none,
    Ex.first_methodDocument rules _, (C130_method _ _ _ _).1 rfl, .okp ..⟩

/-- C130_inline: a key on no curve, inline and in the document. -/
example (rules : SelectRules) :
    ProofJwtHeader.extractKeyAndAlg (withMethods rules Ex.jwkRules Ex.methodRules Ex.ext)
      ⟨[], .EdDSA, some (.jwk (okpText (str! "none") (str! "AAEC")))⟩ none =
    ProofJwtHeader.extractKeyAndAlg (withMethods rules Ex.jwkRules Ex.methodRules Ex.ext)
      ⟨[], .EdDSA, some (.keyId (str! "did:example:h#k"))⟩
      (some (Ex.methodDocument (Ex.methodMap (some (none, .okp (str! "none") [0, 1, 2] none)) none []))) := by
  refine C130_inline _ _ rules Ex.ext _ _ _ _ _ _ _ none (.okp (str! "none") [0, 1, 2] none) (okpText_text _ _)
    (by simp [depth, depthMembers]) ((C128_document _ _ _ _).1 (by decide +kernel)) (by decide) _
    (Ex.first_methodDocument rules _) fun km => ?_
  cases km <;>
    simp [hasMaterial_jwk, hasMaterial_base58, hasMaterial_hex, hasMaterial_multibase, Ex.methodMap, eq_comm]

end Oid4vci
