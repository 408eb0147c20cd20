import Verif.Spec.Jwk
import Verif.Props.Documents
import Verif.Props.Reject
import Verif.Props.Text

/-! C128, C129: the key in the header of a proof. -/

namespace Oid4vci

open Spec Serde CredentialIssuer

/-! ### Members -/

theorem slot_filter {p : Str × Json → Bool} {kvs : List (Str × Json)} {k : Str} (hp : ∀ v, p (k, v) = true)
    {o : Option Json} : Slot (kvs.filter p) k o ↔ Slot kvs k o := by
  have : field k (kvs.filter p) = field k kvs := by
    unfold field occurrences
    rw [List.filter_filter]
    congr 2
    refine List.filter_congr fun q hq => ?_
    obtain ⟨k', v⟩ := q
    by_cases h : k' = k
    · subst h; simp [hp]
    · simp [h]
  rw [← slot_iff, ← slot_iff, this]

theorem optional_slot {α : Type} {is : Json → α → Prop} {kvs : List (Str × Json)} {k : Str} {a : Option α} :
    (∃ o, Slot kvs k o ∧ Optional is o a) ↔ OptionalClaim is kvs k a := by
  cases a with
  | none =>
    constructor
    · rintro ⟨o, h, rfl | rfl⟩
      · exact .inl h
      · exact .inr h
    · rintro (h | h)
      · exact ⟨none, h, .inl rfl⟩
      · exact ⟨some .null, h, .inr rfl⟩
  | some a =>
    constructor
    · rintro ⟨o, h, v, rfl, hv⟩; exact ⟨v, h, hv⟩
    · rintro ⟨v, h, hv⟩; exact ⟨some v, h, v, rfl, hv⟩

theorem required_slot {α : Type} {is : Json → α → Prop} {kvs : List (Str × Json)} {k : Str} {a : α} :
    (∃ o, Slot kvs k o ∧ Required is o a) ↔ ∃ v, Sole kvs k v ∧ is v a := by
  constructor
  · rintro ⟨o, h, v, rfl, hv⟩; exact ⟨v, h, hv⟩
  · rintro ⟨v, h, hv⟩; exact ⟨some v, h, v, rfl, hv⟩

theorem optional_filter {α : Type} {is : Json → α → Prop} {p : Str × Json → Bool} {kvs : List (Str × Json)} {k : Str}
    (hp : ∀ v, p (k, v) = true) {a : Option α} : OptionalClaim is (kvs.filter p) k a ↔ OptionalClaim is kvs k a := by
  rw [← optional_slot, ← optional_slot]
  simp only [slot_filter hp]

theorem sole_filter {p : Str × Json → Bool} {kvs : List (Str × Json)} {k : Str} (hp : ∀ v, p (k, v) = true) {v : Json} :
    Sole (kvs.filter p) k v ↔ Sole kvs k v := slot_filter (o := some v) hp

section
variable (R : JwkRules)

theorem uint_iff (v : Json) (b : Bytes) : R.uint v = some b ↔ IsUint R v b := by
  cases v <;> simp [JwkRules.uint, IsUint]

theorem alg_iff (v : Json) (a : SsiAlg) : R.alg v = some a ↔ IsAlg R v a := by
  unfold JwkRules.alg IsAlg
  split
  · rename_i s
    simp
  · rename_i k
    simp
  · rename_i h1 h2
    simp only [reduceCtorEq, false_iff, not_exists, not_and, not_or]
    exact fun s _ => ⟨h1 s, h2 s⟩

theorem ec_iff (kvs : List (Str × Json)) (k : JwkKey) : R.ec (.obj kvs) = some k ↔
    ∃ crv x y d, k = .ec crv x y d ∧ OptionalClaim IsText kvs (str! "crv") crv ∧ OptionalClaim (IsUint R) kvs (str! "x") x ∧
      OptionalClaim (IsUint R) kvs (str! "y") y ∧ OptionalClaim (IsUint R) kvs (str! "d") d := by
  unfold JwkRules.ec
  simp only [← optional_slot]
  constructor
  · intro h
    split at h
    · rename_i hs
      simp only [Option.bind_eq_bind, Option.bind_eq_some_iff] at h
      obtain ⟨a0, e0, a1, e1, a2, e2, a3, e3, h⟩ := h
      cases h
      cases struct_iff.1 hs with
      | object kvs os hf =>
        simp only [List.forall₂_cons, List.forall₂_nil_left_iff, and_true] at hf
        exact ⟨a0, a1, a2, a3, rfl, ⟨_, hf.1, (opt_iff text_iff rfl).1 e0⟩, ⟨_, hf.2.1, (opt_iff (uint_iff R) rfl).1 e1⟩,
          ⟨_, hf.2.2.1, (opt_iff (uint_iff R) rfl).1 e2⟩, ⟨_, hf.2.2.2, (opt_iff (uint_iff R) rfl).1 e3⟩⟩
    · cases h
  · rintro ⟨a0, a1, a2, a3, rfl, ⟨o0, s0, e0⟩, ⟨o1, s1, e1⟩, ⟨o2, s2, e2⟩, ⟨o3, s3, e3⟩⟩
    rw [struct_iff.2 (.object kvs [o0, o1, o2, o3] (.cons s0 (.cons s1 (.cons s2 (.cons s3 .nil)))))]
    simp only [(opt_iff text_iff rfl).2 e0, (opt_iff (uint_iff R) rfl).2 e1, (opt_iff (uint_iff R) rfl).2 e2,
      (opt_iff (uint_iff R) rfl).2 e3, Option.bind_eq_bind, Option.bind_some]

theorem okp_iff (kvs : List (Str × Json)) (k : JwkKey) : R.okp (.obj kvs) = some k ↔
    ∃ crv pk d, k = .okp crv pk d ∧ TextClaim kvs (str! "crv") crv ∧ (∃ v, Sole kvs (str! "x") v ∧ IsUint R v pk) ∧
      OptionalClaim (IsUint R) kvs (str! "d") d := by
  unfold JwkRules.okp
  simp only [← optional_slot, ← required_slot]
  constructor
  · intro h
    split at h
    · rename_i hs
      simp only [Option.bind_eq_bind, Option.bind_eq_some_iff] at h
      obtain ⟨a0, e0, a1, e1, a2, e2, h⟩ := h
      cases h
      cases struct_iff.1 hs with
      | object kvs os hf =>
        simp only [List.forall₂_cons, List.forall₂_nil_left_iff, and_true] at hf
        obtain ⟨v, rfl, hv⟩ := (req_iff text_iff).1 e0
        cases hv
        exact ⟨a0, a1, a2, rfl, hf.1, ⟨_, hf.2.1, (req_iff (uint_iff R)).1 e1⟩,
          ⟨_, hf.2.2, (opt_iff (uint_iff R) rfl).1 e2⟩⟩
    · cases h
  · rintro ⟨a0, a1, a2, rfl, s0, ⟨o1, s1, e1⟩, ⟨o2, s2, e2⟩⟩
    rw [struct_iff.2 (.object kvs [some (.str a0), o1, o2] (.cons s0 (.cons s1 (.cons s2 .nil))))]
    simp only [(req_iff text_iff).2 ⟨_, rfl, rfl⟩, (req_iff (uint_iff R)).2 e1, (opt_iff (uint_iff R) rfl).2 e2,
      Option.bind_eq_bind, Option.bind_some]

theorem prime_iff (v : Json) (p : Bytes × Bytes × Bytes) : R.prime v = some p ↔ PrimeDoc R v p := by
  unfold JwkRules.prime PrimeDoc
  constructor
  · intro h
    split at h
    · rename_i hs
      simp only [Option.bind_eq_bind, Option.bind_eq_some_iff] at h
      obtain ⟨a0, e0, a1, e1, a2, e2, h⟩ := h
      cases h
      exact ⟨_, _, _, struct_iff.1 hs, (req_iff (uint_iff R)).1 e0, (req_iff (uint_iff R)).1 e1,
        (req_iff (uint_iff R)).1 e2⟩
    · cases h
  · rintro ⟨r, d, t, hs, e0, e1, e2⟩
    rw [struct_iff.2 hs]
    simp only [(req_iff (uint_iff R)).2 e0, (req_iff (uint_iff R)).2 e1, (req_iff (uint_iff R)).2 e2,
      Option.bind_eq_bind, Option.bind_some]

theorem passable_slot {α : Type} {d : De α} {is : Json → α → Prop} (hd : ∀ v a, d v = some a ↔ is v a)
    (hn : d .null = none) {kvs : List (Str × Json)} {k : Str} :
    (∃ o, Slot kvs k o ∧ (opt d o).isSome = true) ↔ Passable is kvs k := by
  unfold Passable
  simp only [← optional_slot, Option.isSome_iff_exists, opt_iff hd hn]
  constructor
  · rintro ⟨o, h, a, ha⟩; exact ⟨a, o, h, ha⟩
  · rintro ⟨a, o, h, ha⟩; exact ⟨o, h, a, ha⟩

theorem rsa_iff (kvs : List (Str × Json)) (k : JwkKey) : R.rsa (.obj kvs) = some k ↔
    k = .rsa ∧ (∀ k ∈ [str! "n", str! "e", str! "d", str! "p", str! "q", str! "dp", str! "dq", str! "qi"],
        Passable (IsUint R) kvs k) ∧ Passable (ListOf (PrimeDoc R)) kvs (str! "oth") := by
  unfold JwkRules.rsa
  simp only [List.forall_mem_cons, List.not_mem_nil, false_implies, implies_true, and_true,
    ← passable_slot (uint_iff R) rfl, ← passable_slot (vec_iff (prime_iff R)) rfl]
  constructor
  · intro h
    split at h
    · rename_i os hs
      split at h
      · rename_i hc
        cases h
        cases struct_iff.1 hs with
        | object kvs os hf =>
          simp only [JwkRules.rsaNumbers, List.cons_append, List.nil_append] at hf
          obtain ⟨o0, _, s0, hf1, rfl⟩ := List.forall₂_cons_left_iff.1 hf
          obtain ⟨o1, _, s1, hf2, rfl⟩ := List.forall₂_cons_left_iff.1 hf1
          obtain ⟨o2, _, s2, hf3, rfl⟩ := List.forall₂_cons_left_iff.1 hf2
          obtain ⟨o3, _, s3, hf4, rfl⟩ := List.forall₂_cons_left_iff.1 hf3
          obtain ⟨o4, _, s4, hf5, rfl⟩ := List.forall₂_cons_left_iff.1 hf4
          obtain ⟨o5, _, s5, hf6, rfl⟩ := List.forall₂_cons_left_iff.1 hf5
          obtain ⟨o6, _, s6, hf7, rfl⟩ := List.forall₂_cons_left_iff.1 hf6
          obtain ⟨o7, _, s7, hf8, rfl⟩ := List.forall₂_cons_left_iff.1 hf7
          obtain ⟨o8, _, s8, hf9, rfl⟩ := List.forall₂_cons_left_iff.1 hf8
          obtain rfl := List.forall₂_nil_left_iff.1 hf9
          simp only [List.take_succ_cons, List.take_zero, List.drop_succ_cons, List.drop_zero, List.all_cons, List.all_nil,
            Bool.and_true, Bool.and_eq_true] at hc
          obtain ⟨⟨c0, c1, c2, c3, c4, c5, c6, c7⟩, c8⟩ := hc
          exact ⟨rfl, ⟨⟨o0, s0, c0⟩, ⟨o1, s1, c1⟩, ⟨o2, s2, c2⟩, ⟨o3, s3, c3⟩, ⟨o4, s4, c4⟩, ⟨o5, s5, c5⟩, ⟨o6, s6, c6⟩,
            ⟨o7, s7, c7⟩⟩, ⟨o8, s8, c8⟩⟩
      · cases h
    · cases h
  · rintro ⟨rfl, ⟨⟨o0, s0, c0⟩, ⟨o1, s1, c1⟩, ⟨o2, s2, c2⟩, ⟨o3, s3, c3⟩, ⟨o4, s4, c4⟩, ⟨o5, s5, c5⟩, ⟨o6, s6, c6⟩,
      ⟨o7, s7, c7⟩⟩, ⟨o8, s8, c8⟩⟩
    have hst : struct (JwkRules.rsaNumbers ++ [str! "oth"]) (.obj kvs) = some [o0, o1, o2, o3, o4, o5, o6, o7, o8] :=
      struct_iff.2 (.object kvs _ (.cons s0 (.cons s1 (.cons s2 (.cons s3 (.cons s4 (.cons s5 (.cons s6 (.cons s7 (.cons s8
        .nil))))))))))
    rw [hst]
    simp [c0, c1, c2, c3, c4, c5, c6, c7, c8]

theorem symmetric_iff (kvs : List (Str × Json)) (k : JwkKey) : R.symmetric (.obj kvs) = some k ↔
    k = .symmetric ∧ Passable (IsUint R) kvs (str! "k") := by
  unfold JwkRules.symmetric
  rw [← passable_slot (uint_iff R) rfl]
  constructor
  · intro h
    split at h
    · rename_i hs
      obtain ⟨a, ha, rfl⟩ := Option.map_eq_some_iff.1 h
      cases struct_iff.1 hs with
      | object kvs os hf =>
        simp only [List.forall₂_cons, List.forall₂_nil_left_iff, and_true] at hf
        exact ⟨rfl, _, hf, by rw [ha]; rfl⟩
    · cases h
  · rintro ⟨rfl, o, s, c⟩
    obtain ⟨a, ha⟩ := Option.isSome_iff_exists.1 c
    rw [struct_iff.2 (.object kvs [o] (.cons s .nil))]
    simp [ha]

/-- Reading the flattened part, in terms of the members of the whole object. -/
theorem params_iff (kvs : List (Str × Json)) (k : JwkKey) :
    R.params (kvs.filter fun p => decide (p.1 ∉ JwkRules.general)) = some k ↔ KeyMembers R kvs k := by
  have hk : ∀ {α : Type} {is : Json → α → Prop} {a : Option α} {n : Str}, n ∉ JwkRules.general → n ≠ str! "kty" →
      (OptionalClaim is ((kvs.filter fun p => decide (p.1 ∉ JwkRules.general)).filter
        fun p => decide (p.1 ≠ str! "kty")) n a ↔ OptionalClaim is kvs n a) := fun h1 h2 => by
    rw [optional_filter (fun v => by simp [h2]), optional_filter (fun v => by simpa using h1)]
  have hs : ∀ {n : Str} {v : Json}, n ∉ JwkRules.general → n ≠ str! "kty" →
      (Sole ((kvs.filter fun p => decide (p.1 ∉ JwkRules.general)).filter
        fun p => decide (p.1 ≠ str! "kty")) n v ↔ Sole kvs n v) := fun h1 h2 => by
    rw [sole_filter (fun v => by simp [h2]), sole_filter (fun v => by simpa using h1)]
  have hp : ∀ {α : Type} {is : Json → α → Prop} {n : Str}, n ∉ JwkRules.general → n ≠ str! "kty" →
      (Passable is ((kvs.filter fun p => decide (p.1 ∉ JwkRules.general)).filter
        fun p => decide (p.1 ≠ str! "kty")) n ↔ Passable is kvs n) := fun h1 h2 => exists_congr fun _ => hk h1 h2
  have hn : JwkRules.kinds.Nodup := by decide
  have hkty : ∀ t, Sole (kvs.filter fun p => decide (p.1 ∉ JwkRules.general)) (str! "kty") t ↔
      Sole kvs (str! "kty") t := fun t => sole_filter fun v => by
    show decide (str! "kty" ∉ JwkRules.general) = true; decide
  unfold JwkRules.params
  simp only [Option.bind_eq_bind, Option.bind_eq_some_iff, Prod.exists, tagged_iff]
  constructor
  · rintro ⟨t, c, ht, i, hi, h⟩
    obtain ⟨name, hname, hf⟩ := (variant_iff _ hn _ _ _).1 hi
    cases ht with
    | object _ t ht =>
      have hsole := (hkty t).1 ht
      match i, hname, hf, h with
      | 0, hname, hf, h =>
        cases hname
        obtain ⟨crv, x, y, d, rfl, h0, h1, h2, h3⟩ := (ec_iff R _ _).1 h
        exact .ec crv x y d ⟨t, hsole, hf⟩ ((hk (by decide) (by decide)).1 h0) ((hk (by decide) (by decide)).1 h1)
          ((hk (by decide) (by decide)).1 h2) ((hk (by decide) (by decide)).1 h3)
      | 1, hname, hf, h =>
        cases hname
        obtain ⟨rfl, h0, h1⟩ := (rsa_iff R _ _).1 h
        refine .rsa ⟨t, hsole, hf⟩ (fun n hn => ?_) ((hp (by decide) (by decide)).1 h1)
        have : n ∉ JwkRules.general ∧ n ≠ str! "kty" := by revert n; decide
        exact (hp this.1 this.2).1 (h0 n hn)
      | 2, hname, hf, h =>
        cases hname
        obtain ⟨rfl, h0⟩ := (symmetric_iff R _ _).1 h
        exact .symmetric ⟨t, hsole, hf⟩ ((hp (by decide) (by decide)).1 h0)
      | 3, hname, hf, h =>
        cases hname
        obtain ⟨crv, pk, d, rfl, h0, ⟨v, h1, h1'⟩, h2⟩ := (okp_iff R _ _).1 h
        exact .okp crv pk d ⟨t, hsole, hf⟩ ((hs (by decide) (by decide)).1 h0)
          ⟨v, (hs (by decide) (by decide)).1 h1, h1'⟩ ((hk (by decide) (by decide)).1 h2)
      | n + 4, hname, hf, h => cases hname
  · intro h
    cases h with
    | ec crv x y d ht h0 h1 h2 h3 =>
      obtain ⟨t, hsole, hf⟩ := ht
      exact ⟨t, _, .object _ t ((hkty t).2 hsole), 0, (variant_iff _ hn _ _ _).2 ⟨_, rfl, hf⟩,
        (ec_iff R _ _).2 ⟨crv, x, y, d, rfl, (hk (by decide) (by decide)).2 h0, (hk (by decide) (by decide)).2 h1,
          (hk (by decide) (by decide)).2 h2, (hk (by decide) (by decide)).2 h3⟩⟩
    | rsa ht h0 h1 =>
      obtain ⟨t, hsole, hf⟩ := ht
      refine ⟨t, _, .object _ t ((hkty t).2 hsole), 1, (variant_iff _ hn _ _ _).2 ⟨_, rfl, hf⟩,
        (rsa_iff R _ _).2 ⟨rfl, fun n hn => ?_, (hp (by decide) (by decide)).2 h1⟩⟩
      have : n ∉ JwkRules.general ∧ n ≠ str! "kty" := by revert n; decide
      exact (hp this.1 this.2).2 (h0 n hn)
    | symmetric ht h0 =>
      obtain ⟨t, hsole, hf⟩ := ht
      exact ⟨t, _, .object _ t ((hkty t).2 hsole), 2, (variant_iff _ hn _ _ _).2 ⟨_, rfl, hf⟩,
        (symmetric_iff R _ _).2 ⟨rfl, (hp (by decide) (by decide)).2 h0⟩⟩
    | okp crv pk d ht h0 h1 h2 =>
      obtain ⟨t, hsole, hf⟩ := ht
      obtain ⟨v, h1, h1'⟩ := h1
      exact ⟨t, _, .object _ t ((hkty t).2 hsole), 3, (variant_iff _ hn _ _ _).2 ⟨_, rfl, hf⟩,
        (okp_iff R _ _).2 ⟨crv, pk, d, rfl, (hs (by decide) (by decide)).2 h0, ⟨v, (hs (by decide) (by decide)).2 h1, h1'⟩,
          (hk (by decide) (by decide)).2 h2⟩⟩

/-- C128. Which documents are read as a JWK, and as which. -/
theorem C128_document (v : Json) (a : Option SsiAlg) (k : JwkKey) : R.de v = some (a, k) ↔ JwkDoc R v a k := by
  unfold JwkRules.de JwkDoc
  constructor
  · intro h
    split at h
    · rename_i hs
      simp only [Option.bind_eq_bind, Option.bind_eq_some_iff] at h
      obtain ⟨a0, e0, a1, e1, a2, e2, a3, e3, a4, e4, a5, e5, a6, e6, a7, e7, k', ek, h⟩ := h
      cases h
      obtain ⟨kvs, rfl, hf, rfl⟩ := structFlat_iff.1 hs
      simp only [JwkRules.general, List.forall₂_cons, List.forall₂_nil_left_iff, and_true] at hf
      obtain ⟨s0, s1, s2, s3, s4, s5, s6, s7⟩ := hf
      exact ⟨kvs, rfl, ⟨⟨a0, optional_slot.1 ⟨_, s0, (opt_iff text_iff rfl).1 e0⟩⟩,
        ⟨a1, optional_slot.1 ⟨_, s1, (opt_iff (vec_iff text_iff) rfl).1 e1⟩⟩,
        optional_slot.1 ⟨_, s2, (opt_iff (alg_iff R) rfl).1 e2⟩,
        ⟨a3, optional_slot.1 ⟨_, s3, (opt_iff text_iff rfl).1 e3⟩⟩,
        ⟨a4, optional_slot.1 ⟨_, s4, (opt_iff text_iff rfl).1 e4⟩⟩,
        ⟨a5, optional_slot.1 ⟨_, s5, (opt_iff (vec_iff text_iff) rfl).1 e5⟩⟩,
        ⟨a6, optional_slot.1 ⟨_, s6, (opt_iff (uint_iff R) rfl).1 e6⟩⟩,
        ⟨a7, optional_slot.1 ⟨_, s7, (opt_iff (uint_iff R) rfl).1 e7⟩⟩⟩, (params_iff R kvs k).1 ek⟩
    · cases h
  · rintro ⟨kvs, rfl, ⟨⟨a0, h0⟩, ⟨a1, h1⟩, h2, ⟨a3, h3⟩, ⟨a4, h4⟩, ⟨a5, h5⟩, ⟨a6, h6⟩, ⟨a7, h7⟩⟩, hk⟩
    obtain ⟨o0, s0, e0⟩ := optional_slot.2 h0
    obtain ⟨o1, s1, e1⟩ := optional_slot.2 h1
    obtain ⟨o2, s2, e2⟩ := optional_slot.2 h2
    obtain ⟨o3, s3, e3⟩ := optional_slot.2 h3
    obtain ⟨o4, s4, e4⟩ := optional_slot.2 h4
    obtain ⟨o5, s5, e5⟩ := optional_slot.2 h5
    obtain ⟨o6, s6, e6⟩ := optional_slot.2 h6
    obtain ⟨o7, s7, e7⟩ := optional_slot.2 h7
    have hst : structFlat JwkRules.general (.obj kvs) = some ([o0, o1, o2, o3, o4, o5, o6, o7],
        kvs.filter fun p => decide (p.1 ∉ JwkRules.general)) :=
      structFlat_iff.2 ⟨kvs, rfl, .cons s0 (.cons s1 (.cons s2 (.cons s3 (.cons s4 (.cons s5 (.cons s6 (.cons s7
        .nil))))))), rfl⟩
    rw [hst]
    simp only [(opt_iff text_iff rfl).2 e0, (opt_iff (vec_iff text_iff) rfl).2 e1, (opt_iff (alg_iff R) rfl).2 e2,
      (opt_iff text_iff rfl).2 e3, (opt_iff text_iff rfl).2 e4, (opt_iff (vec_iff text_iff) rfl).2 e5,
      (opt_iff (uint_iff R) rfl).2 e6, (opt_iff (uint_iff R) rfl).2 e7, (params_iff R kvs k).2 hk, Option.bind_eq_bind,
      Option.bind_some]

theorem jwkRead_iff (s : Str) (jwk : Jwk) : R.read s = .ok jwk ↔
    ∃ v a k, JsonText v s ∧ depth v ≤ Json.maxDepth ∧ JwkDoc R v a k ∧ jwk = R.shown a k := by
  unfold JwkRules.read
  constructor
  · intro h
    split at h
    · rename_i a k hb
      cases h
      obtain ⟨v, hv, hd⟩ := Option.bind_eq_some_iff.1 hb
      obtain ⟨h1, h2⟩ := Json.parse_iff.1 hv
      exact ⟨v, a, k, h1, h2, (C128_document R v a k).1 hd, rfl⟩
    · cases h
  · rintro ⟨v, a, k, h1, h2, h3, rfl⟩
    rw [Json.parse_iff.2 ⟨h1, h2⟩, Option.bind_some, (C128_document R v a k).2 h3]

theorem usedBytes_iff (hec : ∀ crv x y d, R.inferred (.ec crv x y d) ≠ some SsiAlg.edDSA) (a : Option SsiAlg) (k : JwkKey)
    (key : Bytes) : KeyBytes (R.shown a k) key ↔ UsedBytes a k key := by
  unfold KeyBytes JwkRules.shown
  constructor
  · intro h
    cases k with
    | okp crv pk d =>
      simp only [JwkParams.okp.injEq, reduceCtorEq, false_and, or_false] at h
      subst h
      exact .okp crv pk d
    | ec crv x y d =>
      simp only [reduceCtorEq, JwkParams.ec.injEq, false_or] at h
      obtain ⟨rfl, h⟩ := h
      refine .ec crv key y d ?_
      cases a with
      | none => exact absurd h (hec _ _ _ _)
      | some a => exact h
    | rsa => simp at h
    | symmetric => simp at h
  · intro h
    cases h with
    | okp crv pk d => exact .inl rfl
    | ec crv x y d ha => subst ha; exact .inr ⟨rfl, rfl⟩

/-- C128. The key that is taken from the header is the one which the text of the `jwk` describes as a JWK; the algorithm is
that of the header. Nothing else is taken for a key. -/
theorem C128_key (hec : ∀ crv x y d, R.inferred (.ec crv x y d) ≠ some SsiAlg.edDSA) (x : Ext) (h : ProofJwtHeader)
    (doc : Option x.Doc) (s : Str) (hh : h.additionalHeader = some (.jwk s)) (key : Bytes) (alg : ProofJwtAlgorithm) :
    h.extractKeyAndAlg (withJwks R x) doc = .ok (key, alg) ↔
      alg = h.alg ∧ ∃ v a k, JsonText v s ∧ depth v ≤ Json.maxDepth ∧ JwkDoc R v a k ∧ UsedBytes a k key := by
  unfold ProofJwtHeader.extractKeyAndAlg
  rw [hh]
  cases hr : R.read s with
  | error m =>
    have hr' : (withJwks R x).parseJwk s = .error m := hr
    simp only [hr', reduceCtorEq, false_iff, not_and, not_exists]
    rintro - v a k h1 h2 h3
    have := (jwkRead_iff R s _).2 ⟨v, a, k, h1, h2, h3, rfl⟩
    rw [hr] at this; cases this
  | ok jwk =>
    have hr' : (withJwks R x).parseJwk s = .ok jwk := hr
    simp only [hr', Res.bind_eq_ok, Res.ok.injEq, Prod.mk.injEq, jwkToPublicKeyBytes_ok]
    constructor
    · rintro ⟨key', h1, rfl, rfl⟩
      obtain ⟨v, a, k, e1, e2, e3, rfl⟩ := (jwkRead_iff R s jwk).1 hr
      exact ⟨rfl, v, a, k, e1, e2, e3, (usedBytes_iff R hec a k key').1 h1⟩
    · rintro ⟨rfl, v, a, k, e1, e2, e3, e4⟩
      have := (jwkRead_iff R s _).2 ⟨v, a, k, e1, e2, e3, rfl⟩
      rw [hr] at this; cases this
      exact ⟨key, (usedBytes_iff R hec a k key).2 e4, rfl, rfl⟩

/-- C128. A text that does not describe a JWK is refused as such, with the text; every other text is read. -/
theorem C128_unreadable (x : Ext) (h : ProofJwtHeader) (doc : Option x.Doc) (s : Str)
    (hh : h.additionalHeader = some (.jwk s)) (s' msg : Str) :
    h.extractKeyAndAlg (withJwks R x) doc = .err (.unableToTransformIntoJoseItem s' msg) ↔
      s' = s ∧ msg = R.message s ∧ ¬ ∃ v a k, JsonText v s ∧ depth v ≤ Json.maxDepth ∧ JwkDoc R v a k := by
  unfold ProofJwtHeader.extractKeyAndAlg
  rw [hh]
  cases hr : R.read s with
  | error m =>
    have hr' : (withJwks R x).parseJwk s = .error m := hr
    have hm : m = R.message s := by
      unfold JwkRules.read at hr
      split at hr <;> cases hr
      rfl
    simp only [hr', Res.err.injEq, JwtError.unableToTransformIntoJoseItem.injEq]
    constructor
    · rintro ⟨rfl, rfl⟩
      refine ⟨rfl, hm, ?_⟩
      rintro ⟨v, a, k, h1, h2, h3⟩
      have := (jwkRead_iff R s _).2 ⟨v, a, k, h1, h2, h3, rfl⟩
      rw [hr] at this; cases this
    · rintro ⟨rfl, rfl, -⟩
      exact ⟨rfl, hm⟩
  | ok jwk =>
    have hr' : (withJwks R x).parseJwk s = .ok jwk := hr
    simp only [hr']
    constructor
    · intro he
      simp only [Res.bind_eq_err, reduceCtorEq, and_false, exists_false, or_false] at he
      unfold ProofJwtHeader.jwkToPublicKeyBytes at he
      cases hpr : jwk.params with
      | ec px =>
        rw [hpr] at he
        simp only at he
        split at he
        · cases px <;> cases he
        · cases he
      | okp pk => rw [hpr] at he; cases he
      | other => rw [hpr] at he; cases he
    · rintro ⟨-, -, hn⟩
      obtain ⟨v, a, k, e1, e2, e3, -⟩ := (jwkRead_iff R s jwk).1 hr
      exact absurd ⟨v, a, k, e1, e2, e3⟩ hn

/-! ### Order and further members -/

theorem claim_field {α : Type} {is : Json → α → Prop} {kvs kvs' : List (Str × Json)} {k : Str} {a : Option α}
    (hf : field k kvs = field k kvs') (h : OptionalClaim is kvs k a) : OptionalClaim is kvs' k a := by
  obtain ⟨o, h1, h2⟩ := optional_slot.2 h
  exact optional_slot.1 ⟨o, slot_iff.1 (hf ▸ slot_iff.2 h1), h2⟩

theorem sole_field {kvs kvs' : List (Str × Json)} {k : Str} {v : Json} (hf : field k kvs = field k kvs')
    (h : Sole kvs k v) : Sole kvs' k v :=
  slot_iff.1 (hf ▸ slot_iff.2 (show Slot kvs k (some v) from h) : field k kvs' = some (some v))

theorem doc_fields {kvs kvs' : List (Str × Json)} (hf : ∀ k ∈ jwkNames, field k kvs = field k kvs') {a : Option SsiAlg}
    {k : JwkKey} (h : JwkDoc R (.obj kvs) a k) : JwkDoc R (.obj kvs') a k := by
  obtain ⟨_, hv, ⟨⟨a0, h0⟩, ⟨a1, h1⟩, h2, ⟨a3, h3⟩, ⟨a4, h4⟩, ⟨a5, h5⟩, ⟨a6, h6⟩, ⟨a7, h7⟩⟩, hk⟩ := h
  cases hv
  have c : ∀ {α : Type} {is : Json → α → Prop} {n : Str} {a : Option α}, n ∈ jwkNames → OptionalClaim is kvs n a →
      OptionalClaim is kvs' n a := fun hn h => claim_field (hf _ hn) h
  refine ⟨kvs', rfl, ⟨⟨a0, c (by decide) h0⟩, ⟨a1, c (by decide) h1⟩, c (by decide) h2, ⟨a3, c (by decide) h3⟩,
    ⟨a4, c (by decide) h4⟩, ⟨a5, c (by decide) h5⟩, ⟨a6, c (by decide) h6⟩, ⟨a7, c (by decide) h7⟩⟩, ?_⟩
  have t : ∀ {n : Str} {i : Nat}, KeyType kvs n i → KeyType kvs' n i := fun ⟨t, h1, h2⟩ =>
    ⟨t, sole_field (hf _ (by decide)) h1, h2⟩
  cases hk with
  | ec crv x y d ht h0 h1 h2 h3 =>
    exact .ec crv x y d (t ht) (c (by decide) h0) (c (by decide) h1) (c (by decide) h2) (c (by decide) h3)
  | rsa ht h0 h1 =>
    obtain ⟨o, h1⟩ := h1
    refine .rsa (t ht) (fun n hn => ?_) ⟨o, c (by decide) h1⟩
    obtain ⟨o, h0⟩ := h0 n hn
    exact ⟨o, c ((by decide : ∀ m ∈ JwkRules.rsaNumbers, m ∈ jwkNames) n hn) h0⟩
  | symmetric ht h0 =>
    obtain ⟨o, h0⟩ := h0
    exact .symmetric (t ht) ⟨o, c (by decide) h0⟩
  | okp crv pk d ht h0 h1 h2 =>
    obtain ⟨v, h1, h1'⟩ := h1
    exact .okp crv pk d (t ht) (sole_field (hf _ (by decide)) h0) ⟨v, sole_field (hf _ (by decide)) h1, h1'⟩
      (c (by decide) h2)

theorem de_fields {kvs kvs' : List (Str × Json)} (hf : ∀ k ∈ jwkNames, field k kvs = field k kvs') :
    R.de (.obj kvs) = R.de (.obj kvs') := by
  refine Option.ext fun p => ?_
  obtain ⟨a, k⟩ := p
  rw [C128_document, C128_document]
  exact ⟨doc_fields R hf, doc_fields R fun k hk => (hf k hk).symm⟩

/-- C128. The order of the members does not matter, and members with other names are ignored, wherever they stand and
however often. -/
theorem C128_members :
    (∀ kvs kvs' : List (Str × Json), kvs.Perm kvs' → R.de (.obj kvs) = R.de (.obj kvs')) ∧
    ∀ (l₁ l₂ : List (Str × Json)) (k : Str) (v : Json), k ∉ jwkNames →
      R.de (.obj (l₁ ++ (k, v) :: l₂)) = R.de (.obj (l₁ ++ l₂)) :=
  ⟨fun _ _ h => de_fields R fun k _ => field_perm h k,
   fun l₁ l₂ k v hk => de_fields R fun k' hk' => field_insert l₁ l₂ k v k' (by rintro rfl; exact hk hk')⟩

/-- C128. In particular each text of a JWK for an octet key pair gives its public key: the type, a curve and the key have to
be there, once; other members of JWKs need not. -/
theorem C128_okp (x : Ext) (h : ProofJwtHeader) (doc : Option x.Doc) (s : Str) (hh : h.additionalHeader = some (.jwk s))
    (kvs : List (Str × Json)) (hs : JsonText (.obj kvs) s) (hd : depth (.obj kvs) ≤ Json.maxDepth)
    (hkty : TextClaim kvs (str! "kty") (str! "OKP")) (crv : Str) (hcrv : TextClaim kvs (str! "crv") crv)
    (t : Str) (ht : TextClaim kvs (str! "x") t) (key : Bytes) (hkey : R.bytes t = some key)
    (ho : ∀ k ∈ jwkNames, k ∈ [str! "kty", str! "crv", str! "x"] ∨ Absent kvs k) :
    h.extractKeyAndAlg (withJwks R x) doc = .ok (key, h.alg) := by
  have n : ∀ {α : Type} {is : Json → α → Prop} {k : Str}, k ∈ jwkNames → k ∉ [str! "kty", str! "crv", str! "x"] →
      OptionalClaim is kvs k none := fun h1 h2 => .inl ((ho _ h1).resolve_left h2)
  have hdoc : JwkDoc R (.obj kvs) none (.okp crv key none) :=
    ⟨kvs, rfl, ⟨⟨none, n (by decide) (by decide)⟩, ⟨none, n (by decide) (by decide)⟩, n (by decide) (by decide),
      ⟨none, n (by decide) (by decide)⟩, ⟨none, n (by decide) (by decide)⟩, ⟨none, n (by decide) (by decide)⟩,
      ⟨none, n (by decide) (by decide)⟩, ⟨none, n (by decide) (by decide)⟩⟩,
      .okp crv key none ⟨_, hkty, .inl rfl⟩ hcrv ⟨_, ht, t, rfl, hkey⟩ (n (by decide) (by decide))⟩
  have hr : (withJwks R x).parseJwk s = .ok (R.shown none (.okp crv key none)) :=
    (jwkRead_iff R s _).2 ⟨_, _, _, hs, hd, hdoc, rfl⟩
  unfold ProofJwtHeader.extractKeyAndAlg
  rw [hh]
  simp only [hr, JwkRules.shown, ProofJwtHeader.jwkToPublicKeyBytes]
  rfl

/-! ### C129: the curve -/

/-- The text of a JWK with these three members. -/
def okpText (crv t : Str) : Str :=
  (Json.obj [(str! "kty", .str (str! "OKP")), (str! "crv", .str crv), (str! "x", .str t)]).print

theorem okpText_text (crv t : Str) :
    JsonText (.obj [(str! "kty", .str (str! "OKP")), (str! "crv", .str crv), (str! "x", .str t)]) (okpText crv t) :=
  C65_printed _ ⟨trivial, trivial, trivial, trivial⟩ (by simp [depth, depthMembers])

/-- C129 in full: a key that is taken from the header has the type of the keys for EdDSA, is on one of its curves, and has
the length of the public keys there (RFC 8037 section 2, RFC 8032 sections 5.1.5 and 5.2.5). -/
def C129_statement : Prop :=
  ∀ (x : Ext) (h : ProofJwtHeader) (doc : Option x.Doc) (s : Str) (key : Bytes) (alg : ProofJwtAlgorithm),
    h.additionalHeader = some (.jwk s) → h.extractKeyAndAlg (withJwks R x) doc = .ok (key, alg) →
    ∃ v a crv d n, JsonText v s ∧ depth v ≤ 127 ∧ JwkDoc R v a (.okp crv key d) ∧ (crv, n) ∈ edwardsCurves ∧
      key.length = n

/-- C129. Instead the curve is not looked at: the same key comes out whichever curve is named, whatever its length. -/
theorem C129_curve_ignored (x : Ext) (h : ProofJwtHeader) (doc : Option x.Doc) (crv t : Str)
    (hh : h.additionalHeader = some (.jwk (okpText crv t))) (key : Bytes) (hkey : R.bytes t = some key) :
    h.extractKeyAndAlg (withJwks R x) doc = .ok (key, h.alg) :=
  C128_okp R x h doc _ hh _ (okpText_text crv t) (by simp [depth, depthMembers, Json.maxDepth]) 
    (by simp [TextClaim, Sole, memberCount]) crv (by simp [TextClaim, Sole, memberCount]) t
    (by simp [TextClaim, Sole, memberCount]) key hkey
    (by
      intro k hk
      have h0 : k ∈ [str! "kty", str! "crv", str! "x"] ∨ k ∉ [str! "kty", str! "crv", str! "x"] := em _
      refine h0.imp_right fun h1 => ?_
      simp only [List.mem_cons, List.not_mem_nil, or_false, not_or] at h1
      simp [Absent, h1.1, h1.2.1, h1.2.2])

/-- C129 is violated: whatever can be read as bytes is taken for a key on the curve X25519, which is for key agreement. -/
theorem C129_refuted (hb : ∃ t key, R.bytes t = some key) : ¬ C129_statement R := by
  intro hst
  obtain ⟨t, key, ht⟩ := hb
  obtain ⟨v, a, crv, d, n, h1, h2, h3, h4, -⟩ := hst Ex.ext
    ⟨str! "openid4vci-proof+jwt", .EdDSA, some (.jwk (okpText (str! "X25519") t))⟩ none _ key .EdDSA rfl
    (C129_curve_ignored R Ex.ext _ none _ t rfl key ht)
  obtain rfl := C65_unambiguous _ _ _ h1 (okpText_text _ _) h2 (by simp [depth, depthMembers])
  obtain ⟨kvs, hv, -, hk⟩ := h3
  cases hv
  cases hk with
  | okp _ _ _ _ hc _ _ =>
    obtain ⟨rfl, -⟩ : crv = str! "X25519" ∧ _ := by simpa [TextClaim, Sole] using hc
    revert h4
    simp [edwardsCurves]

/-- C129, partially: the key has the type of the keys for EdDSA, or is the x coordinate of an elliptic curve key which says
that it is for EdDSA; RSA keys, symmetric keys and other elliptic curve keys are never taken. Missing: that the curve is
one of EdDSA, and the length. -/
theorem C129_type_partial (hec : ∀ crv x y d, R.inferred (.ec crv x y d) ≠ some SsiAlg.edDSA) (x : Ext)
    (h : ProofJwtHeader) (doc : Option x.Doc) (s : Str) (hh : h.additionalHeader = some (.jwk s)) (key : Bytes)
    (alg : ProofJwtAlgorithm) (ho : h.extractKeyAndAlg (withJwks R x) doc = .ok (key, alg)) :
    ∃ v, JsonText v s ∧ depth v ≤ 127 ∧ ((∃ a crv d, JwkDoc R v a (.okp crv key d)) ∨
      ∃ crv y d, JwkDoc R v (some ⟨str! "EdDSA"⟩) (.ec crv (some key) y d)) := by
  obtain ⟨-, v, a, k, h1, h2, h3, h4⟩ := (C128_key R hec x h doc s hh key alg).1 ho
  refine ⟨v, h1, h2, ?_⟩
  cases h4 with
  | okp crv _ d => exact .inl ⟨a, crv, d, h3⟩
  | ec crv _ y d ha => subst ha; exact .inr ⟨crv, y, d, h3⟩

end

/-! ### Examples -/

namespace Ex

/-- The rules of ssi-jwk, as far as the names and the inferred algorithms go. -/
def jwkRules : JwkRules where
  algorithm s :=
    if s ∈ [str! "HS256", str! "HS384", str! "HS512", str! "RS256", str! "RS384", str! "RS512", str! "PS256", str! "PS384",
      str! "PS512", str! "EdDSA", str! "EdBlake2b", str! "ES256", str! "ES384", str! "ES256K", str! "ES256K-R",
      str! "ESKeccakK", str! "ESBlake2b", str! "ESBlake2bK", str! "AleoTestnet1Signature", str! "None"] then some ⟨s⟩
    else none
  inferred
    | .rsa => some ⟨str! "PS256"⟩
    | .okp crv _ _ => if crv = str! "Ed25519" then some ⟨str! "EdDSA"⟩ else none
    | .ec crv _ _ _ =>
      if crv = some (str! "secp256k1") then some ⟨str! "ES256K"⟩
      else if crv = some (str! "P-256") then some ⟨str! "ES256"⟩
      else if crv = some (str! "P-384") then some ⟨str! "ES384"⟩
      else none
    | .symmetric => none
  bytes := base64urlDecode
  message _ := str! "not a JWK"

theorem jwkRules_ec (crv : Option Str) (x y d : Option Bytes) :
    jwkRules.inferred (.ec crv x y d) ≠ some SsiAlg.edDSA := by
  simp only [jwkRules]
  split_ifs <;> decide

/-- A header with this JWK. -/
def withKey (s : Str) : ProofJwtHeader := ⟨str! "openid4vci-proof+jwt", .EdDSA, some (.jwk s)⟩

end Ex

/-- C128_key: the members in another order, with white space and with members that mean nothing; an elliptic curve key for
EdDSA; the type by its position. -/
example :
    (Ex.withKey (str! "{ \"x\": \"AAECAw\", \"ext\": true, \"crv\": \"Ed25519\", \"kty\": \"OKP\", \"y\": 1 }")).extractKeyAndAlg
      (withJwks Ex.jwkRules Ex.ext) none = .ok ([0, 1, 2, 3], .EdDSA) ∧
    (Ex.withKey (str! "{\"kty\":\"EC\",\"alg\":\"EdDSA\",\"x\":\"AAECAw\"}")).extractKeyAndAlg
      (withJwks Ex.jwkRules Ex.ext) none = .ok ([0, 1, 2, 3], .EdDSA) ∧
    (Ex.withKey (str! "{\"kty\":3,\"crv\":\"X25519\",\"x\":\"AAECAw\",\"alg\":{\"RS256\":null}}")).extractKeyAndAlg
      (withJwks Ex.jwkRules Ex.ext) none = .ok ([0, 1, 2, 3], .EdDSA) := by decide +kernel

/-- C128_key: other types of keys are read, but none is taken from them. -/
example :
    (Ex.withKey (str! "{\"kty\":\"EC\",\"crv\":\"P-256\",\"x\":\"AAECAw\"}")).extractKeyAndAlg
      (withJwks Ex.jwkRules Ex.ext) none = .err (.unsupportedAlgorithm (str! "\"ES256\"")) ∧
    ∀ s ∈ [str! "{\"kty\":\"RSA\",\"n\":\"AAECAw\",\"e\":\"AQAB\"}", str! "{\"kty\":\"oct\",\"k\":\"AAECAw\"}"],
      ∀ key alg, (Ex.withKey s).extractKeyAndAlg (withJwks Ex.jwkRules Ex.ext) none ≠ .ok (key, alg) := by
  refine ⟨by decide +kernel, ?_⟩
  intro s hs key alg h
  obtain ⟨-, v, a, k, h1, h2, h3, h4⟩ := (C128_key Ex.jwkRules Ex.jwkRules_ec Ex.ext (Ex.withKey s) none s rfl key alg).1 h
  have hp := Json.parse_iff.2 ⟨h1, h2⟩
  have hd := (C128_document _ _ _ _).2 h3
  have : ((Json.parse s).bind Ex.jwkRules.de).map Prod.snd = some k := by rw [hp, Option.bind_some, hd]; rfl
  simp only [List.mem_cons, List.not_mem_nil, or_false] at hs
  rcases hs with rfl | rfl
  · have hk : some JwkKey.rsa = some k := Eq.trans (by decide +kernel) this
    cases hk; cases h4
  · have hk : some JwkKey.symmetric = some k := Eq.trans (by decide +kernel) this
    cases hk; cases h4

/-- C128_unreadable: a member twice, a member that is missing, one of the wrong type, padding, another case. -/
example : ∀ s ∈ [str! "{\"kty\":\"OKP\",\"crv\":\"Ed25519\",\"x\":\"AAECAw\",\"x\":\"AAECAw\"}",
      str! "{\"kty\":\"OKP\",\"x\":\"AAECAw\"}", str! "{\"kty\":\"OKP\",\"crv\":\"Ed25519\",\"x\":\"AAECAw\",\"use\":1}",
      str! "{\"kty\":\"OKP\",\"crv\":\"Ed25519\",\"x\":\"AAECAw==\"}",
      str! "{\"kty\":\"okp\",\"crv\":\"Ed25519\",\"x\":\"AAECAw\"}"],
    (Ex.withKey s).extractKeyAndAlg (withJwks Ex.jwkRules Ex.ext) none =
      .err (.unableToTransformIntoJoseItem s (str! "not a JWK")) := by decide +kernel

/-- C128_unreadable, read backwards. -/
example : ¬ ∃ v a k, JsonText v (str! "{\"kty\":\"OKP\"}") ∧ depth v ≤ Json.maxDepth ∧ JwkDoc Ex.jwkRules v a k :=
  ((C128_unreadable Ex.jwkRules Ex.ext (Ex.withKey (str! "{\"kty\":\"OKP\"}")) none _ rfl (str! "{\"kty\":\"OKP\"}")
    (str! "not a JWK")).1 (by decide +kernel)).2.2

/-- C128_members: a JWK, its members in reverse, and with further members. -/
example :
    Ex.jwkRules.de (.obj [(str! "kty", .str (str! "oct")), (str! "k", .str (str! "AAEC")), (str! "alg", .str (str! "HS256"))]) =
      some (some ⟨str! "HS256"⟩, .symmetric) ∧
    Ex.jwkRules.de (.obj [(str! "ext", .null), (str! "alg", .str (str! "HS256")), (str! "ext", .num 1),
      (str! "k", .str (str! "AAEC")), (str! "kty", .str (str! "oct"))]) = some (some ⟨str! "HS256"⟩, .symmetric) := by
  decide +kernel

/-- C129_curve_ignored: the key of another curve, and a key of no length. -/
example : (Ex.withKey (okpText (str! "X448") (str! "AAEC"))).extractKeyAndAlg (withJwks Ex.jwkRules Ex.ext) none =
      .ok ([0, 1, 2], .EdDSA) ∧
    (Ex.withKey (okpText (str! "Ed25519") [])).extractKeyAndAlg (withJwks Ex.jwkRules Ex.ext) none = .ok ([], .EdDSA) :=
  ⟨C129_curve_ignored _ Ex.ext _ none _ _ rfl _ (by decide +kernel),
   C129_curve_ignored _ Ex.ext _ none _ _ rfl _ (by decide +kernel)⟩

/-- C129_refuted for these rules. -/
example : ¬ C129_statement Ex.jwkRules := C129_refuted _ ⟨[], [], by decide +kernel⟩

end Oid4vci
