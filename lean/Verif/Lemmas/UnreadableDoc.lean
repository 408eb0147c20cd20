import Verif.Lemmas.UnreadableStruct

/-! Header and body as whole documents. -/

namespace Oid4vci
namespace Reading

open Json Serde
open Spec hiding value

variable {α β : Type}

theorem pairsOf_and {R : Str → Json → Str → Prop} {P : Str → Json → Prop} {b : Bool} {kvs : List (Str × Json)} {t : Str} :
    PairsOf (fun k v t => R k v t ∧ P k v) b kvs t ↔ PairsOf R b kvs t ∧ ∀ p ∈ kvs, P p.1 p.2 := by
  constructor
  · intro h
    induction h with
    | close b w hw => exact ⟨.close b w hw, by simp⟩
    | more b k v kvs w w' u w1 w2 t rest hw hw' hu hw1 hw2 hv _ ih =>
      exact ⟨.more b k v kvs w w' u w1 w2 t rest hw hw' hu hw1 hw2 hv.1 ih.1, by
        intro p hp
        rcases List.mem_cons.1 hp with rfl | hp
        · exact hv.2
        · exact ih.2 p hp⟩
  · rintro ⟨h, hP⟩
    induction h with
    | close b w hw => exact .close b w hw
    | more b k v kvs w w' u w1 w2 t rest hw hw' hu hw1 hw2 hv _ ih =>
      exact .more b k v kvs w w' u w1 w2 t rest hw hw' hu hw1 hw2 ⟨hv, hP (k, v) (by simp)⟩
        (ih fun p hp => hP p (by simp [hp]))

theorem pairsOf_congr {R R' : Str → Json → Str → Prop} (hR : ∀ k v t, R k v t ↔ R' k v t) {b : Bool}
    {kvs : List (Str × Json)} {t : Str} : PairsOf R b kvs t ↔ PairsOf R' b kvs t := by
  rw [show R = R' from funext fun k => funext fun v => funext fun t => propext (hR k v t)]

/-! ### Fields -/

theorem mem_names {k : Str} {kvs : List (Str × Json)} : k ∈ kvs.map Prod.fst ↔ ∃ v, (k, v) ∈ kvs := by
  simp

theorem req_isSome {d : De α} {k : Str} {kvs : List (Str × Json)} :
    ((field k kvs).bind (req d)).isSome ↔
      (occurrences k kvs).length ≤ 1 ∧ k ∈ kvs.map Prod.fst ∧ ∀ v, (k, v) ∈ kvs → (d v).isSome := by
  simp only [mem_names, ← mem_occurrences]
  unfold field
  split
  · rename_i h; simp [h, req]
  · rename_i v h; simp [h, req]
  · rename_i h1 h2
    constructor
    · intro h; cases h
    · rintro ⟨h, -, -⟩
      match ho : occurrences k kvs with
      | [] => exact absurd ho h1
      | [v] => exact absurd ho (h2 v)
      | _ :: _ :: _ => rw [ho] at h; simp only [List.length_cons] at h; omega

theorem opt_isSome {d : De α} {k : Str} {kvs : List (Str × Json)} :
    ((field k kvs).bind (opt d)).isSome ↔
      (occurrences k kvs).length ≤ 1 ∧ ∀ v, (k, v) ∈ kvs → (Serde.option d v).isSome := by
  simp only [← mem_occurrences]
  unfold field
  split
  · rename_i h; simp [h, opt]
  · rename_i v h; simp [h, opt]
  · rename_i h1 h2
    constructor
    · intro h; cases h
    · rintro ⟨h, -⟩
      match ho : occurrences k kvs with
      | [] => exact absurd ho h1
      | [v] => exact absurd ho (h2 v)
      | _ :: _ :: _ => rw [ho] at h; simp only [List.length_cons] at h; omega

theorem string_isSome {v : Json} : (Serde.string v).isSome ↔ IsStr (fun _ => True) v := by
  cases v <;> simp [Serde.string, IsStr]

theorem time_isSome {x : Ext} {v : Json} : (deTime x v).isSome ↔ IsStr (fun s => (x.parseTime s).isSome) v := by
  cases v <;> simp [deTime, IsStr]

theorem option_isSome {d : De α} {v : Json} : (Serde.option d v).isSome ↔ v = .null ∨ (d v).isSome := by
  cases v <;> simp [Serde.option]

theorem ofName_isSome {k : Str} : (ProofJwtAlgorithm.ofName k).isSome ↔ k ∈ algNames := by
  unfold ProofJwtAlgorithm.ofName algNames
  simp only [List.find?_isSome, List.mem_map, beq_iff_eq]

theorem alg_isSome {v : Json} : (ProofJwtAlgorithm.de v).isSome ↔ IsVariant algNames v := by
  unfold ProofJwtAlgorithm.de
  split
  · rw [ofName_isSome]
    simp [IsVariant]
  · rw [ofName_isSome]
    simp [IsVariant]
  · rename_i h1 h2
    constructor
    · intro h; cases h
    · rintro ⟨k, -, rfl | rfl⟩
      · exact absurd rfl (h1 k)
      · exact absurd rfl (h2 k)

theorem header_isSome {kvs : List (Str × Json)} : (ProofJwtHeader.de (.obj kvs)).isSome ↔
    ((field (str! "typ") kvs).bind (req Serde.string)).isSome ∧
    ((field (str! "alg") kvs).bind (req ProofJwtAlgorithm.de)).isSome := by
  unfold ProofJwtHeader.de structFlat
  simp only [fields]
  cases field (str! "typ") kvs <;> cases field (str! "alg") kvs <;> simp
  rename_i a b
  cases req Serde.string a <;> cases req ProofJwtAlgorithm.de b <;> simp

theorem body_isSome {x : Ext} {kvs : List (Str × Json)} : (ProofJwtBody.de x (.obj kvs)).isSome ↔
    ((field (str! "iss") kvs).bind (opt Serde.string)).isSome ∧
    ((field (str! "aud") kvs).bind (req Serde.string)).isSome ∧
    ((field (str! "sub") kvs).bind (opt Serde.string)).isSome ∧
    ((field (str! "iat") kvs).bind (req (deTime x))).isSome ∧
    ((field (str! "nonce") kvs).bind (req Serde.string)).isSome ∧
    ((field (str! "nbf") kvs).bind (opt (deTime x))).isSome ∧
    ((field (str! "exp") kvs).bind (opt (deTime x))).isSome := by
  unfold ProofJwtBody.de struct
  simp only [fields]
  cases field (str! "iss") kvs <;> simp
  cases field (str! "aud") kvs <;> simp
  cases field (str! "sub") kvs <;> simp
  cases field (str! "iat") kvs <;> simp
  cases field (str! "nonce") kvs <;> simp
  cases field (str! "nbf") kvs <;> simp
  cases field (str! "exp") kvs <;> simp
  rename_i a b c d e f g
  cases opt Serde.string a <;> simp
  cases req Serde.string b <;> simp
  cases opt Serde.string c <;> simp
  cases req (deTime x) d <;> simp
  cases req Serde.string e <;> simp
  cases opt (deTime x) f <;> simp
  cases opt (deTime x) g <;> simp

theorem bodyArr_isSome {x : Ext} {xs : List Json} : (ProofJwtBody.de x (.arr xs)).isSome ↔
    ∃ a b c d e f g, xs = [a, b, c, d, e, f, g] ∧ (Serde.option Serde.string a).isSome ∧ (Serde.string b).isSome ∧
      (Serde.option Serde.string c).isSome ∧ (deTime x d).isSome ∧ (Serde.string e).isSome ∧
      (Serde.option (deTime x) f).isSome ∧ (Serde.option (deTime x) g).isSome := by
  constructor
  · intro h
    unfold ProofJwtBody.de struct at h
    simp only at h
    split at h
    · rename_i hs
      split at hs
      · rename_i hl
        match xs, hl with
        | [a, b, c, d, e, f, g], _ =>
          simp only [List.map_cons, List.map_nil, Option.some.injEq, List.cons.injEq, and_true] at hs
          obtain ⟨rfl, rfl, rfl, rfl, rfl, rfl, rfl⟩ := hs
          refine ⟨a, b, c, d, e, f, g, rfl, ?_⟩
          simp only [opt, req] at h
          revert h
          cases Serde.option Serde.string a <;> simp
          cases Serde.string b <;> simp
          cases Serde.option Serde.string c <;> simp
          cases deTime x d <;> simp
          cases Serde.string e <;> simp
          cases Serde.option (deTime x) f <;> simp
          cases Serde.option (deTime x) g <;> simp
      · cases hs
    · cases h
  · rintro ⟨a, b, c, d, e, f, g, rfl, ha, hb, hc, hd, he, hf, hg⟩
    obtain ⟨a', ha⟩ := Option.isSome_iff_exists.1 ha
    obtain ⟨b', hb⟩ := Option.isSome_iff_exists.1 hb
    obtain ⟨c', hc⟩ := Option.isSome_iff_exists.1 hc
    obtain ⟨d', hd⟩ := Option.isSome_iff_exists.1 hd
    obtain ⟨e', he⟩ := Option.isSome_iff_exists.1 he
    obtain ⟨f', hf⟩ := Option.isSome_iff_exists.1 hf
    obtain ⟨g', hg⟩ := Option.isSome_iff_exists.1 hg
    simp [ProofJwtBody.de, struct, opt, req, ha, hb, hc, hd, he, hf, hg]

/-! ### The header -/

/-- What is demanded of a member of the header. -/
def HeaderMember (k : Str) (v : Json) : Prop :=
  (k = str! "typ" → IsStr (fun _ => True) v) ∧ (k = str! "alg" → IsVariant algNames v)

theorem header_field {T : Texts} {k : Str} {f : Reader Json} (h : headerField T k = some f) :
    Reads f fun v t => Val 126 v t ∧ HeaderMember k v := by
  unfold headerField at h
  split at h
  · cases h
    subst_vars
    refine (reads_text T 126).congr fun j t => and_congr_right fun _ => ?_
    simp [HeaderMember]
  · split at h
    · cases h
      subst_vars
      refine (reads_variant T algNames 125).congr fun j t => and_congr_right fun _ => ?_
      simp [HeaderMember]
    · cases h

theorem header_other {T : Texts} {k : Str} (h : headerField T k = none) :
    Reads (fueled fun n => value n (Json.maxDepth - 1)) fun v t => Val 126 v t ∧ HeaderMember k v := by
  refine (reads_value 126).congr fun j t => ?_
  unfold headerField at h
  split at h
  · cases h
  · split at h
    · cases h
    · rename_i h1 h2
      simp [HeaderMember, h1, h2]

theorem headerField_isSome {T : Texts} {k : Str} : (headerField T k).isSome ↔ k = str! "typ" ∨ k = str! "alg" := by
  unfold headerField
  split
  · simp [*]
  · split
    · simp [*]
    · simp [*]

theorem header_members {T : Texts} {kvs : List (Str × Json)} :
    (ProofJwtHeader.de (.obj kvs)).isSome ↔
      Members (headerField T) [str! "typ", str! "alg"] kvs ∧ ∀ p ∈ kvs, HeaderMember p.1 p.2 := by
  rw [header_isSome, req_isSome, req_isSome]
  unfold Members
  rw [fresh_iff]
  simp only [string_isSome, alg_isSome, headerField_isSome, HeaderMember]
  constructor
  · rintro ⟨⟨a1, a2, a3⟩, b1, b2, b3⟩
    refine ⟨⟨?_, by
      intro k hk
      simp only [List.mem_cons, List.not_mem_nil, or_false] at hk
      rcases hk with rfl | rfl
      · exact a2
      · exact b2⟩, ?_⟩
    · rintro k (rfl | rfl)
      · exact ⟨a1, by simp⟩
      · exact ⟨b1, by simp⟩
    · rintro ⟨k, v⟩ hp
      exact ⟨fun e => a3 v (by rw [← e]; exact hp), fun e => b3 v (by rw [← e]; exact hp)⟩
  · rintro ⟨⟨h1, h2⟩, h3⟩
    exact ⟨⟨(h1 _ (.inl rfl)).1, h2 _ (by simp), fun v hv => (h3 _ hv).1 rfl⟩,
      (h1 _ (.inr rfl)).1, h2 _ (by simp), fun v hv => (h3 _ hv).2 rfl⟩

theorem header_obj {j : Json} (h : (ProofJwtHeader.de j).isSome) : ∃ kvs, j = .obj kvs := by
  cases j with
  | obj kvs => exact ⟨kvs, rfl⟩
  | _ => simp [ProofJwtHeader.de, structFlat] at h

/-- A header is read whatever follows it. -/
theorem header_complete (T : Texts) {w t r : Str} {j : Json} (hw : Ws w) (ht : Val 127 j t)
    (hj : (ProofJwtHeader.de j).isSome) : got (readHeader T) (w ++ t ++ r) = some (j, r) := by
  obtain ⟨kvs, rfl⟩ := header_obj hj
  obtain ⟨d', t', e, hp, rfl⟩ := val_obj.1 ht
  obtain rfl : d' = 126 := by omega
  have hm := header_members (T := T) |>.1 hj
  unfold readHeader
  rw [got_settle, List.append_assoc, List.cons_append]
  simp only [got_bind, got_ws, skipWs_char hw (show isWs '{' = false by decide), Option.bind_some, List.head?_cons,
    if_true, got_eat, List.tail_cons]
  rw [(visitMap_iff (r := r) (R := fun k v t => Val 126 v t ∧ HeaderMember k v) (fun k f => header_field)
    (fun k => header_other)).2 ⟨t', pairsOf_and.2 ⟨hp, hm.2⟩, hm.1, by simp⟩]
  rfl

theorem reads_header (T : Texts) :
    Reads (readHeader T) fun j t => Val 127 j t ∧ (ProofJwtHeader.de j).isSome where
  sound := by
    intro s a r hn h
    unfold readHeader at h
    rw [got_settle] at h
    rcases skipWs_cases s with ⟨w, hw, -, hsk⟩ | ⟨w, c, r0, hw, rfl, hsk⟩
    · simp [hsk] at h
    simp only [got_bind, got_ws, Option.bind_some, hsk, List.head?_cons] at h
    split at h
    · subst_vars
      simp only [got_bind, got_eat, Option.bind_some, List.tail_cons, Option.bind_eq_some_iff, got_pure,
        Option.some.injEq, Prod.mk.injEq] at h
      obtain ⟨⟨kvs, r1⟩, h1, rfl, rfl⟩ := h
      obtain ⟨t, hp, hm, e⟩ := (visitMap_iff (R := fun k v t => Val 126 v t ∧ HeaderMember k v)
        (fun k f => header_field) (fun k => header_other)).1 hn.of_append.2.of_cons h1
      subst e
      have := pairsOf_and.1 hp
      exact ⟨w, _, hw, ⟨val_obj.2 ⟨126, t, rfl, this.1, rfl⟩, header_members.2 ⟨hm, this.2⟩⟩, by simp⟩
    · rw [got_wrongType] at h; cases h
  complete hw h _ := header_complete T hw h.1 h.2

/-! ### The body -/

/-- What is demanded of a claim. -/
def Claim (x : Ext) (k : Str) (v : Json) : Prop :=
  (k = str! "iss" → v = .null ∨ IsStr (fun _ => True) v) ∧
  (k = str! "aud" → IsStr (fun _ => True) v) ∧
  (k = str! "sub" → v = .null ∨ IsStr (fun _ => True) v) ∧
  (k = str! "iat" → IsStr (fun s => (x.parseTime s).isSome) v) ∧
  (k = str! "nonce" → IsStr (fun _ => True) v) ∧
  (k = str! "nbf" → v = .null ∨ IsStr (fun s => (x.parseTime s).isSome) v) ∧
  (k = str! "exp" → v = .null ∨ IsStr (fun s => (x.parseTime s).isSome) v)

/-- A member of the body as text. -/
def BodyMember (k : Str) (v : Json) (t : Str) : Prop :=
  if k ∈ claimNames then Val 127 v t else v = .null ∧ SkippedValue t

theorem body_field {x : Ext} {T : Texts} {k : Str} {f : Reader Json} (h : bodyField x T k = some f) :
    Reads f fun v t => BodyMember k v t ∧ Claim x k v := by
  unfold bodyField bodyFields at h
  simp only [Option.map_eq_some_iff, Prod.exists, exists_eq_right] at h
  obtain ⟨k', h⟩ := h
  have hk := List.find?_some h
  have hm := List.mem_of_find?_eq_some h
  simp only [beq_iff_eq] at hk
  subst hk
  have hR : ∀ {P : Json → Prop}, Reads f (fun j t => Val 127 j t ∧ P j) → k' ∈ claimNames →
      (∀ v, P v ↔ Claim x k' v) → Reads f fun v t => BodyMember k' v t ∧ Claim x k' v := by
    intro P hr hk hP
    refine hr.congr fun j t => ?_
    unfold BodyMember
    rw [if_pos hk, hP]
  simp only [List.mem_cons, Prod.mk.injEq, List.not_mem_nil, or_false] at hm
  rcases hm with ⟨rfl, rfl⟩ | ⟨rfl, rfl⟩ | ⟨rfl, rfl⟩ | ⟨rfl, rfl⟩ | ⟨rfl, rfl⟩ | ⟨rfl, rfl⟩ | ⟨rfl, rfl⟩
  · exact hR (reads_option (reads_text T 127)) (by decide) fun v => by simp [Claim]
  · exact hR (reads_text T 127) (by decide) fun v => by simp [Claim]
  · exact hR (reads_option (reads_text T 127)) (by decide) fun v => by simp [Claim]
  · exact hR (reads_time x T 127) (by decide) fun v => by simp [Claim]
  · exact hR (reads_text T 127) (by decide) fun v => by simp [Claim]
  · exact hR (reads_option (reads_time x T 127)) (by decide) fun v => by simp [Claim]
  · exact hR (reads_option (reads_time x T 127)) (by decide) fun v => by simp [Claim]

theorem bodyField_isSome {x : Ext} {T : Texts} {k : Str} : (bodyField x T k).isSome ↔ k ∈ claimNames := by
  unfold bodyField bodyFields claimNames
  simp only [Option.isSome_map, List.find?_isSome, beq_iff_eq, List.mem_cons, List.not_mem_nil, or_false,
    exists_eq_or_imp, exists_eq_left]
  constructor <;> (rintro (h | h | h | h | h | h | h) <;> simp [h])

theorem reads_ignored : Reads ignored fun v t => v = .null ∧ SkippedValue t where
  sound := by
    intro s a r hn h
    unfold ignored at h
    simp only [got_bind, Option.bind_eq_some_iff, got_pure, Option.some.injEq, Prod.mk.injEq] at h
    obtain ⟨⟨_, r1⟩, h1, rfl, rfl⟩ := h
    obtain ⟨w, t, hw, ht, e⟩ := reads_skip.sound hn h1
    exact ⟨w, t, hw, ⟨rfl, ht⟩, e⟩
  complete := by
    rintro w t a r hw ⟨rfl, ht⟩ hr
    unfold ignored
    have := reads_skip.complete (a := ()) hw ht hr
    simp only [got_bind, this, Option.bind_some, got_pure]

theorem body_other {x : Ext} {T : Texts} {k : Str} (h : bodyField x T k = none) :
    Reads ignored fun v t => BodyMember k v t ∧ Claim x k v := by
  have hk : k ∉ claimNames := by rw [← bodyField_isSome (x := x) (T := T), h]; simp
  refine reads_ignored.congr fun j t => ?_
  unfold BodyMember
  rw [if_neg hk]
  simp only [claimNames, List.mem_cons, List.not_mem_nil, or_false, not_or] at hk
  obtain ⟨h1, h2, h3, h4, h5, h6, h7⟩ := hk
  simp [Claim, h1, h2, h3, h4, h5, h6, h7]

theorem body_members {x : Ext} {T : Texts} {kvs : List (Str × Json)} :
    (ProofJwtBody.de x (.obj kvs)).isSome ↔
      Members (bodyField x T) [str! "aud", str! "iat", str! "nonce"] kvs ∧ ∀ p ∈ kvs, Claim x p.1 p.2 := by
  rw [body_isSome]
  simp only [req_isSome, opt_isSome]
  unfold Members
  rw [fresh_iff]
  simp only [string_isSome, time_isSome, option_isSome, bodyField_isSome, Claim]
  constructor
  · rintro ⟨⟨a1, a2⟩, ⟨b1, b2, b3⟩, ⟨c1, c2⟩, ⟨d1, d2, d3⟩, ⟨e1, e2, e3⟩, ⟨f1, f2⟩, ⟨g1, g2⟩⟩
    refine ⟨⟨?_, ?_⟩, ?_⟩
    · intro k hk
      simp only [claimNames, List.mem_cons, List.not_mem_nil, or_false] at hk
      refine ⟨?_, by simp⟩
      rcases hk with rfl | rfl | rfl | rfl | rfl | rfl | rfl <;> assumption
    · intro k hk
      simp only [List.mem_cons, List.not_mem_nil, or_false] at hk
      rcases hk with rfl | rfl | rfl <;> assumption
    · rintro ⟨k, v⟩ hp
      refine ⟨?_, ?_, ?_, ?_, ?_, ?_, ?_⟩
      · rintro rfl; exact a2 v hp
      · rintro rfl; exact b3 v hp
      · rintro rfl; exact c2 v hp
      · rintro rfl; exact d3 v hp
      · rintro rfl; exact e3 v hp
      · rintro rfl; exact f2 v hp
      · rintro rfl; exact g2 v hp
  · rintro ⟨⟨h1, h2⟩, h3⟩
    have h1' := fun k hk => (h1 k hk).1
    refine ⟨⟨h1' _ (by decide), fun v hv => (h3 _ hv).1 rfl⟩,
      ⟨h1' _ (by decide), h2 _ (by decide), fun v hv => (h3 _ hv).2.1 rfl⟩,
      ⟨h1' _ (by decide), fun v hv => (h3 _ hv).2.2.1 rfl⟩,
      ⟨h1' _ (by decide), h2 _ (by decide), fun v hv => (h3 _ hv).2.2.2.1 rfl⟩,
      ⟨h1' _ (by decide), h2 _ (by decide), fun v hv => (h3 _ hv).2.2.2.2.1 rfl⟩,
      ⟨h1' _ (by decide), fun v hv => (h3 _ hv).2.2.2.2.2.1 rfl⟩,
      ⟨h1' _ (by decide), fun v hv => (h3 _ hv).2.2.2.2.2.2 rfl⟩⟩

theorem looseMember_iff {known : List Str} {k : Str} {v : Json} {s : Str} : LooseMember known k v s ↔
    ∃ u w w' t, CharsText k u ∧ Ws w ∧ Ws w' ∧ (if k ∈ known then Val 127 v t else v = .null ∧ SkippedValue t) ∧
      s = '"' :: (wide u ++ '"' :: (w ++ ':' :: (w' ++ t))) := by
  constructor
  · intro h
    cases h with
    | known _ n s w w' u t hk hn hs hw hw' hv hd ht =>
      obtain ⟨u', hu', rfl⟩ := hn
      obtain rfl := utf8Text_iff.1 hs
      obtain rfl := utf8Text_iff.1 ht
      refine ⟨u', w, w', wide u, hu', hw, hw', ?_, by rw [wide_quoted]; simp⟩
      rw [if_pos hk]
      exact ⟨u, hv, hd, rfl⟩
    | other n s w w' t hk hn hs hw hw' hv =>
      obtain ⟨u', hu', rfl⟩ := hn
      obtain rfl := utf8Text_iff.1 hs
      refine ⟨u', w, w', t, hu', hw, hw', ?_, by rw [wide_quoted]; simp⟩
      rw [if_neg hk]
      exact ⟨rfl, hv⟩
  · rintro ⟨u, w, w', t, hu, hw, hw', hv, rfl⟩
    have e : '"' :: (wide u ++ '"' :: (w ++ ':' :: (w' ++ t))) = ('"' :: (wide u ++ ['"'])) ++ w ++ ':' :: (w' ++ t) := by
      simp
    rw [e, ← wide_quoted]
    split at hv
    · rename_i hk
      obtain ⟨u', h1, h2, rfl⟩ := hv
      exact .known k v _ _ w w' u' _ hk ⟨u, hu, rfl⟩ (utf8Text_iff.2 rfl) hw hw' h1 h2 (utf8Text_iff.2 rfl)
    · rename_i hk
      obtain ⟨rfl, hv⟩ := hv
      exact .other k _ _ w w' t hk ⟨u, hu, rfl⟩ (utf8Text_iff.2 rfl) hw hw' hv

theorem looseMembers_iff {kvs : List (Str × Json)} : ∀ {t : Str},
    LooseMembers claimNames kvs t ↔ ∃ t', PairsOf BodyMember false kvs t' ∧ t = t' ++ ['}'] := by
  induction kvs with
  | nil =>
    intro t
    constructor
    · intro h
      cases h with
      | close w hw => exact ⟨w, .close _ w hw, rfl⟩
    · rintro ⟨t', h, rfl⟩
      cases h with
      | close _ w hw => exact .close _ hw
  | cons p kvs ih =>
    intro t
    constructor
    · intro h
      cases h with
      | more k v _ w w' s t hw hw' hs ht =>
        obtain ⟨t', hp, rfl⟩ := ih.1 ht
        obtain ⟨u, w1, w2, t, hu, hw1, hw2, hv, rfl⟩ := looseMember_iff.1 hs
        exact ⟨_, .more false k v kvs w w' u w1 w2 t t' hw hw' hu hw1 hw2 hv hp, by simp [sep]⟩
    · rintro ⟨t', h, rfl⟩
      cases h with
      | more _ k v _ w w' u w1 w2 t rest hw hw' hu hw1 hw2 hv hp =>
        have := LooseMembers.more k v kvs w w' _ _ hw hw' (looseMember_iff.2 ⟨u, w1, w2, t, hu, hw1, hw2, hv, rfl⟩)
          (ih.2 ⟨rest, hp, rfl⟩)
        simpa [sep] using this

theorem looseObject_pairs {kvs : List (Str × Json)} {t : Str} :
    LooseObject claimNames kvs t ↔ ∃ t', PairsOf BodyMember true kvs t' ∧ t = '{' :: (t' ++ ['}']) := by
  constructor
  · intro h
    cases h with
    | empty w hw => exact ⟨w, .close _ w hw, rfl⟩
    | members k v kvs w s t hw hs ht =>
      obtain ⟨t', hp, rfl⟩ := looseMembers_iff.1 ht
      obtain ⟨u, w1, w2, t, hu, hw1, hw2, hv, rfl⟩ := looseMember_iff.1 hs
      exact ⟨_, .more true k v kvs w [] u w1 w2 t t' hw Ws.nil hu hw1 hw2 hv hp, by simp [sep]⟩
  · rintro ⟨t', h, rfl⟩
    cases h with
    | close _ _ hw => exact .empty _ hw
    | more _ k v kvs w w' u w1 w2 t rest hw hw' hu hw1 hw2 hv hp =>
      have := LooseObject.members k v kvs (w ++ w') _ _ (Ws.append hw hw')
        (looseMember_iff.2 ⟨u, w1, w2, t, hu, hw1, hw2, hv, rfl⟩) (looseMembers_iff.2 ⟨rest, hp, rfl⟩)
      simpa [sep] using this

/-- What is demanded of the elements of an array. -/
def bodySlots (x : Ext) : List (Json → Prop) :=
  [fun v => v = .null ∨ IsStr (fun _ => True) v, IsStr (fun _ => True),
   fun v => v = .null ∨ IsStr (fun _ => True) v, IsStr (fun s => (x.parseTime s).isSome), IsStr (fun _ => True),
   fun v => v = .null ∨ IsStr (fun s => (x.parseTime s).isSome) v,
   fun v => v = .null ∨ IsStr (fun s => (x.parseTime s).isSome) v]

theorem slotted_iff {R : Json → Str → Prop} : ∀ {Ps : List (Json → Prop)} {b : Bool} {xs : List Json} {s : Str},
    (∃ t w, Slotted b (Ps.map fun P x t => R x t ∧ P x) xs t ∧ Ws w ∧ s = t ++ w) ↔
      ItemsOf R b xs s ∧ List.Forall₂ (fun P x => P x) Ps xs := by
  intro Ps
  induction Ps with
  | nil =>
    intro b xs s
    constructor
    · rintro ⟨t, w, h, hw, rfl⟩
      cases h
      exact ⟨.close b w hw, .nil⟩
    · rintro ⟨h, hf⟩
      cases hf
      cases h with
      | close _ w hw => exact ⟨[], s, .nil b, hw, rfl⟩
  | cons P Ps ih =>
    intro b xs s
    constructor
    · rintro ⟨t, w, h, hw, rfl⟩
      cases h with
      | cons _ _ _ x xs w0 w' t rest hw0 hw' ht hrest =>
        obtain ⟨h1, h2⟩ := ih.1 ⟨rest, w, hrest, hw, rfl⟩
        have := ItemsOf.more (R := R) b x xs w0 w' t (rest ++ w) hw0 hw' ht.1 h1
        exact ⟨by simpa using this, .cons ht.2 h2⟩
    · rintro ⟨h, hf⟩
      cases hf with
      | cons hP hf =>
      cases h with
      | more _ _ _ w0 w' t rest hw0 hw' ht hrest =>
        obtain ⟨t1, w, h1, hw, rfl⟩ := ih.2 ⟨hrest, hf⟩
        exact ⟨_, w, .cons b _ _ _ _ w0 w' t t1 hw0 hw' ⟨ht, hP⟩ h1, hw, by simp⟩

theorem bodyArr_slots {x : Ext} {xs : List Json} :
    (ProofJwtBody.de x (.arr xs)).isSome ↔ List.Forall₂ (fun P x => P x) (bodySlots x) xs := by
  rw [bodyArr_isSome]
  simp only [string_isSome, time_isSome, option_isSome]
  constructor
  · rintro ⟨a, b, c, d, e, f, g, rfl, h1, h2, h3, h4, h5, h6, h7⟩
    exact .cons h1 (.cons h2 (.cons h3 (.cons h4 (.cons h5 (.cons h6 (.cons h7 .nil))))))
  · intro h
    unfold bodySlots at h
    rcases h with _ | ⟨h1, _ | ⟨h2, _ | ⟨h3, _ | ⟨h4, _ | ⟨h5, _ | ⟨h6, _ | ⟨h7, h⟩⟩⟩⟩⟩⟩⟩
    cases h
    exact ⟨_, _, _, _, _, _, _, rfl, h1, h2, h3, h4, h5, h6, h7⟩

theorem reads_slots (x : Ext) (T : Texts) : List.Forall₂ Reads ((bodyFields x T).map Prod.snd)
    ((bodySlots x).map fun P v t => Val 126 v t ∧ P v) :=
  .cons (reads_option (reads_text T 126)) (.cons (reads_text T 126) (.cons (reads_option (reads_text T 126))
    (.cons (reads_time x T 126) (.cons (reads_text T 126) (.cons (reads_option (reads_time x T 126))
      (.cons (reads_option (reads_time x T 126)) .nil))))))

/-- The text of a body. -/
def BodyText (j : Json) (t : Str) : Prop :=
  (∃ kvs, j = .obj kvs ∧ LooseObject claimNames kvs t) ∨ ((∀ kvs, j ≠ .obj kvs) ∧ Val 127 j t)

theorem body_shape {x : Ext} {j : Json} (h : (ProofJwtBody.de x j).isSome) : (∃ kvs, j = .obj kvs) ∨ ∃ xs, j = .arr xs := by
  cases j with
  | obj kvs => exact .inl ⟨kvs, rfl⟩
  | arr xs => exact .inr ⟨xs, rfl⟩
  | _ => simp [ProofJwtBody.de, struct] at h

theorem slots_cons {x : Ext} : ∀ R ∈ (bodySlots x).map (fun P v t => Val 126 v t ∧ P v), ∀ v t, R v t →
    ∃ c t', t = c :: t' ∧ isWs c = false ∧ c ≠ ']' := by
  intro R hR v t h
  obtain ⟨P, -, rfl⟩ := List.mem_map.1 hR
  obtain ⟨c, t', e, h1, h2, -⟩ := val_cons h.1
  exact ⟨c, t', e, h1, h2⟩

/-- A body is read whatever follows it. -/
theorem body_complete (x : Ext) (T : Texts) {w t r : Str} {j : Json} (hw : Ws w) (ht : BodyText j t)
    (hj : (ProofJwtBody.de x j).isSome) : got (readBody x T) (w ++ t ++ r) = some (j, r) := by
  unfold readBody
  rw [got_settle, List.append_assoc]
  rcases body_shape hj with ⟨kvs, rfl⟩ | ⟨xs, rfl⟩
  · have ht : LooseObject claimNames kvs t := by
      rcases ht with ⟨kvs', e, h⟩ | ⟨h, -⟩
      · cases e; exact h
      · exact absurd rfl (h kvs)
    obtain ⟨t', hp, rfl⟩ := looseObject_pairs.1 ht
    have hm := body_members (T := T) |>.1 hj
    rw [List.cons_append]
    simp only [got_bind, got_ws, skipWs_char hw (show isWs '{' = false by decide), Option.bind_some, List.head?_cons,
      if_true, got_eat, List.tail_cons, if_neg (show ¬ '{' = '[' by decide)]
    rw [(visitMap_iff (r := r) (R := fun k v t => BodyMember k v t ∧ Claim x k v) (fun k f => body_field)
      (fun k => body_other)).2 ⟨t', pairsOf_and.2 ⟨hp, hm.2⟩, hm.1, by simp⟩]
    rfl
  · have ht : Val 127 (.arr xs) t := by
      rcases ht with ⟨kvs', e, h⟩ | ⟨-, h⟩
      · cases e
      · exact h
    obtain ⟨d', t', e, hi, rfl⟩ := val_arr.1 ht
    obtain rfl : d' = 126 := by omega
    rw [List.cons_append]
    simp only [got_bind, got_ws, skipWs_char hw (show isWs '[' = false by decide), Option.bind_some, List.head?_cons,
      if_true, got_eat, List.tail_cons]
    obtain ⟨t1, w1, hs, hw1, rfl⟩ := slotted_iff.2 ⟨hi, bodyArr_slots.1 hj⟩
    rw [(seq_iff (r := r) (reads_slots x T) slots_cons).2 ⟨t1, w1, hs, hw1, by simp⟩]
    rfl

theorem reads_body (x : Ext) (T : Texts) :
    Reads (readBody x T) fun j t => BodyText j t ∧ (ProofJwtBody.de x j).isSome where
  sound := by
    intro s a r hn h
    unfold readBody at h
    rw [got_settle] at h
    rcases skipWs_cases s with ⟨w, hw, -, hsk⟩ | ⟨w, c, r0, hw, rfl, hsk⟩
    · simp [hsk] at h
    simp only [got_bind, got_ws, Option.bind_some, hsk, List.head?_cons] at h
    split at h
    · subst_vars
      simp only [got_bind, got_eat, Option.bind_some, List.tail_cons, Option.bind_eq_some_iff, got_pure,
        Option.some.injEq, Prod.mk.injEq] at h
      obtain ⟨⟨vs, r1⟩, h1, rfl, rfl⟩ := h
      obtain ⟨t, w', hs, hw', e⟩ := (seq_iff (reads_slots x T) slots_cons).1 hn.of_append.2.of_cons h1
      subst e
      obtain ⟨h2, h3⟩ := slotted_iff.1 ⟨t, w', hs, hw', rfl⟩
      exact ⟨w, _, hw, ⟨.inr ⟨(fun kvs e => by cases e), val_arr.2 ⟨126, _, rfl, h2, rfl⟩⟩, bodyArr_slots.2 h3⟩, by simp⟩
    split at h
    · subst_vars
      simp only [got_bind, got_eat, Option.bind_some, List.tail_cons, Option.bind_eq_some_iff, got_pure,
        Option.some.injEq, Prod.mk.injEq] at h
      obtain ⟨⟨kvs, r1⟩, h1, rfl, rfl⟩ := h
      obtain ⟨t, hp, hm, e⟩ := (visitMap_iff (R := fun k v t => BodyMember k v t ∧ Claim x k v)
        (fun k f => body_field) (fun k => body_other)).1 hn.of_append.2.of_cons h1
      subst e
      have := pairsOf_and.1 hp
      exact ⟨w, _, hw, ⟨.inl ⟨kvs, rfl, looseObject_pairs.2 ⟨t, this.1, rfl⟩⟩, body_members.2 ⟨hm, this.2⟩⟩, by simp⟩
    · rw [got_wrongType] at h; cases h
  complete hw h _ := body_complete x T hw h.1 h.2

/-! ### Documents -/

theorem document_iff {f : Reader Json} {R : Json → Str → Prop} (hf : Reads f R) {s r : Str} {j : Json} (hn : Narrow s) :
    got (document f) s = some (j, r) ↔ r = [] ∧ ∃ w t w', Ws w ∧ R j t ∧ Ws w' ∧ s = w ++ t ++ w' := by
  unfold document
  constructor
  · intro h
    simp only [got_bind, Option.bind_eq_some_iff, got_ws] at h
    obtain ⟨⟨j', r1⟩, h1, ⟨o, r2⟩, h2, h⟩ := h
    obtain ⟨w, t, hw, ht, rfl⟩ := hf.sound hn h1
    simp only [Option.some.injEq, Prod.mk.injEq] at h2
    obtain ⟨rfl, rfl⟩ := h2
    rcases skipWs_cases r1 with ⟨w', hw', rfl, hsk⟩ | ⟨w', c, r0, hw', rfl, hsk⟩
    · simp only [hsk, List.head?_nil, got_pure, Option.some.injEq, Prod.mk.injEq] at h
      obtain ⟨rfl, rfl⟩ := h
      exact ⟨rfl, w, t, _, hw, ht, hw', rfl⟩
    · simp [hsk] at h
  · rintro ⟨rfl, w, t, w', hw, ht, hw', rfl⟩
    have h1 := hf.complete hw ht (ws_ends_nil hw')
    have h2 : skipWs w' = [] := by
      have := skipWs_append (s := []) hw'
      rw [List.append_nil] at this
      exact this
    simp only [got_bind, h1, Option.bind_some, got_ws, h2, List.head?_nil, got_pure]

theorem got_header {T : Texts} {b : Bytes} {j : Json} {r : Str} :
    got (document (readHeader T)) (octets b) = some (j, r) ↔
      r = [] ∧ parseSlice b = some j ∧ (ProofJwtHeader.de j).isSome := by
  rw [document_iff (reads_header T) (narrow_octets b)]
  refine and_congr_right fun _ => ?_
  have := parseSlice_unoctets (v := j) (narrow_octets b)
  rw [unoctets_octets] at this
  rw [this]
  constructor
  · rintro ⟨w, t, w', hw, ⟨⟨u, hu, hd, rfl⟩, hj⟩, hw', e⟩
    exact ⟨⟨w ++ u ++ w', by rw [e, wide_append, wide_append, wide_ws hw, wide_ws hw'], ⟨w, u, w', hw, hu, hw', rfl⟩, hd⟩, hj⟩
  · rintro ⟨⟨_, e, ⟨w, u, w', hw, hu, hw', rfl⟩, hd⟩, hj⟩
    exact ⟨w, wide u, w', hw, ⟨⟨u, hu, hd, rfl⟩, hj⟩, hw', by rw [e, wide_append, wide_append, wide_ws hw, wide_ws hw']⟩

theorem got_body {x : Ext} {T : Texts} {b : Bytes} {j : Json} {r : Str} :
    got (document (readBody x T)) (octets b) = some (j, r) ↔
      r = [] ∧ looseSlice claimNames b = some j ∧ (ProofJwtBody.de x j).isSome := by
  rw [document_iff (reads_body x T) (narrow_octets b)]
  refine and_congr_right fun _ => ?_
  have hp := parseSlice_unoctets (v := j) (narrow_octets b)
  rw [unoctets_octets] at hp
  rw [looseSlice_iff]
  constructor
  · rintro ⟨w, t, w', hw, ⟨⟨kvs, rfl, ht⟩ | ⟨hne, u, hu, hd, rfl⟩, hj⟩, hw', e⟩
    · exact ⟨.object kvs w t w' b hw ht hw' (octets_iff.2 e.symm), hj⟩
    · obtain ⟨s, hu', hs, -⟩ := (C65_bytes b j).1 (hp.2 ⟨w ++ u ++ w',
        by rw [e, wide_append, wide_append, wide_ws hw, wide_ws hw'], ⟨w, u, w', hw, hu, hw', rfl⟩, hd⟩)
      exact ⟨.other j s b hne hs hd hu', hj⟩
  · rintro ⟨h, hj⟩
    cases h with
    | object kvs w t w' _ hw ht hw' ho => exact ⟨w, t, w', hw, ⟨.inl ⟨kvs, rfl, ht⟩, hj⟩, hw', (octets_iff.1 ho).symm⟩
    | other _ s _ hne hs hd hu =>
      obtain ⟨s', e, ⟨w, u, w', hw, hu, hw', rfl⟩, -⟩ := hp.1 ((C65_bytes b j).2 ⟨s, hu, hs, hd⟩)
      exact ⟨w, wide u, w', hw, ⟨.inr ⟨hne, u, hu, hd, rfl⟩, hj⟩, hw',
        by rw [e, wide_append, wide_append, wide_ws hw, wide_ws hw']⟩

end Reading
end Oid4vci
