import Verif.Lemmas.HeaderReport
import Verif.Lemmas.Quoted

/-! What is reported about documents that are no objects. -/

namespace Oid4vci
namespace Reading

open Json Serde
open Spec hiding value

variable {α : Type}

/-! ### Values instead of objects -/

theorem wrongType_string (T : Texts) (e : Str) {s u r : Str} (hu : CharsText s u) :
    (wrongType T e : Reader α) ('"' :: (wide u ++ '"' :: r)) =
      (.err (invalidType (str! "string " ++ T.debug s) e) (some r.length), r) := by
  unfold wrongType
  refine settle_custom ?_
  rw [bind_ok (got_peek _)]
  simp only [List.head?_cons]
  rw [if_neg (by decide), if_neg (by decide), if_neg (by decide), if_neg (by decide), if_neg (by decide), if_pos trivial,
    bind_ok (got_eat _), List.tail_cons, bind_ok (string_complete hu r)]
  rfl

theorem wrongType_document (T : Texts) (plain : Char → Bool) (e : Str) {v : Json} {c u r : Str}
    (hc : CalledDocument (fun c => plain c = true) v c) (hv : ValueText v u) (hr : Ends r) :
    ∃ r', (wrongType (T.withDebug plain) e : Reader α) (wide u ++ r) = (.err (invalidType c e) (some r'.length), r') ∧
      r'.length + readBefore v (wide u) = (wide u ++ r).length := by
  cases hc with
  | other _ _ hc => exact wrongType_run _ e hc hv hr
  | string s t ht =>
    cases hv with
    | string _ _ hs =>
    obtain ⟨u, hu, rfl⟩ := hs
    rw [Debug.string_iff.1 ht, wide_quoted]
    refine ⟨r, ?_, ?_⟩
    · have := wrongType_string (α := α) (T.withDebug plain) e (r := r) hu
      simpa [Texts.withDebug] using this
    · simp [readBefore]; omega

/-- Only objects begin with a brace, and only arrays with a bracket. -/
theorem value_first {v : Json} {u t : Str} {x : Char} (hv : ValueText v u) (ht : wide u = x :: t) :
    (x = '{' → ∃ kvs, v = .obj kvs) ∧ (x = '[' → ∃ xs, v = .arr xs) := by
  have hdig : ∀ {n u}, NumberText n u → ∀ {x t}, u = x :: t → x ≠ '{' ∧ x ≠ '[' := by
    intro n u hn x t ht
    rcases number_complete hn (r := []) (by intro c hc; simp at hc) with ⟨t', rfl, -⟩ | ⟨c, t', rfl, hd, -⟩
    · cases ht; decide
    · cases ht
      constructor <;> (rintro rfl; exact absurd hd (by decide))
  cases hv with
  | null => cases ht; exact ⟨fun e => absurd e (by decide), fun e => absurd e (by decide)⟩
  | true => cases ht; exact ⟨fun e => absurd e (by decide), fun e => absurd e (by decide)⟩
  | false => cases ht; exact ⟨fun e => absurd e (by decide), fun e => absurd e (by decide)⟩
  | integer _ _ hn =>
    rw [wide_eq_self (number_ascii hn)] at ht
    exact ⟨fun e => absurd e (hdig hn ht).1, fun e => absurd e (hdig hn ht).2⟩
  | float _ _ hn _ =>
    rw [wide_eq_self (number_ascii hn)] at ht
    exact ⟨fun e => absurd e (hdig hn ht).1, fun e => absurd e (hdig hn ht).2⟩
  | string _ _ hs =>
    obtain ⟨u, -, rfl⟩ := hs
    rw [wide_ascii (by decide)] at ht; cases ht; exact ⟨fun e => absurd e (by decide), fun e => absurd e (by decide)⟩
  | emptyArray => rw [wide_ascii (by decide)] at ht; cases ht; exact ⟨fun e => absurd e (by decide), fun _ => ⟨_, rfl⟩⟩
  | array => rw [wide_ascii (by decide)] at ht; cases ht; exact ⟨fun e => absurd e (by decide), fun _ => ⟨_, rfl⟩⟩
  | emptyObject => rw [wide_ascii (by decide)] at ht; cases ht; exact ⟨fun _ => ⟨_, rfl⟩, fun e => absurd e (by decide)⟩
  | object => rw [wide_ascii (by decide)] at ht; cases ht; exact ⟨fun _ => ⟨_, rfl⟩, fun e => absurd e (by decide)⟩

theorem header_kind_run (T : Texts) (plain : Char → Bool) {v : Json} {c u w r : Str} (hw : Ws w)
    (hc : CalledDocument (fun c => plain c = true) v c) (hv : ValueText v u) (hr : Ends r) (hobj : ∀ kvs, v ≠ .obj kvs) :
    ∃ r', document (readHeader (T.withDebug plain)) (w ++ (wide u ++ r)) =
        (.err (invalidType c (str! "struct ProofJwtHeader")) (some r'.length), r') ∧
      r'.length + readBefore v (wide u) = (wide u ++ r).length := by
  obtain ⟨x, t, ht, h1, -⟩ := val_cons (d := depth v) ⟨u, hv, Nat.le_refl _, rfl⟩
  obtain ⟨r', h, hl⟩ := wrongType_document (α := Json) T plain (str! "struct ProofJwtHeader") hc hv hr
  have hx : x ≠ '{' := fun e => by
    obtain ⟨kvs, e⟩ := (value_first hv ht).1 e
    exact hobj kvs e
  have hsk : skipWs (w ++ (wide u ++ r)) = wide u ++ r := by
    rw [ht, List.cons_append]; exact skipWs_char hw h1
  refine ⟨r', ?_, hl⟩
  unfold document readHeader
  refine bind_err (settle_err ?_)
  rw [bind_ok (got_ws _), hsk, ht, List.cons_append]
  simp only [List.head?_cons]
  rw [if_neg hx, ← List.cons_append, ← ht]
  exact h

theorem body_kind_run (x : Ext) (T : Texts) (plain : Char → Bool) {v : Json} {c u w r : Str} (hw : Ws w)
    (hc : CalledDocument (fun c => plain c = true) v c) (hv : ValueText v u) (hr : Ends r) (hobj : ∀ kvs, v ≠ .obj kvs)
    (harr : ∀ xs, v ≠ .arr xs) :
    ∃ r', document (readBody x (T.withDebug plain)) (w ++ (wide u ++ r)) =
        (.err (invalidType c (str! "struct ProofJwtBody")) (some r'.length), r') ∧
      r'.length + readBefore v (wide u) = (wide u ++ r).length := by
  obtain ⟨y, t, ht, h1, -⟩ := val_cons (d := depth v) ⟨u, hv, Nat.le_refl _, rfl⟩
  obtain ⟨r', h, hl⟩ := wrongType_document (α := Json) T plain (str! "struct ProofJwtBody") hc hv hr
  have hx : y ≠ '{' := fun e => by
    obtain ⟨kvs, e⟩ := (value_first hv ht).1 e
    exact hobj kvs e
  have hx' : y ≠ '[' := fun e => by
    obtain ⟨xs, e⟩ := (value_first hv ht).2 e
    exact harr xs e
  have hsk : skipWs (w ++ (wide u ++ r)) = wide u ++ r := by
    rw [ht, List.cons_append]; exact skipWs_char hw h1
  refine ⟨r', ?_, hl⟩
  unfold document readBody
  refine bind_err (settle_err ?_)
  rw [bind_ok (got_ws _), hsk, ht, List.cons_append]
  simp only [List.head?_cons]
  rw [if_neg hx', if_neg hx, ← List.cons_append, ← ht]
  exact h

/-! ### Arrays -/

/-- The readers of the elements. -/
def elements (x : Ext) (T : Texts) : List (Reader Json) := (bodyFields x T).map Prod.snd

theorem array_run {x : Ext} {T : Texts} {w s r m : Str} {l : Option Nat} (hw : Ws w)
    (h : visitSeq (str! "ProofJwtBody") 7 0 (elements x T) s = (.err m l, r)) :
    ∃ r', document (readBody x T) (w ++ '[' :: s) = (.err m (some (l.getD (endSeq r).2.length)), r') := by
  have h1 : (do
      match ← ws with
      | none => ahead eofValue
      | some c =>
        if c = '[' then do
          eat
          let vs ← after (visitSeq (str! "ProofJwtBody") 7 0 ((bodyFields x T).map Prod.snd)) endSeq
          pure (.arr vs)
        else if c = '{' then do
          eat
          let kvs ← after (visitMap (bodyField x T) ignored [str! "aud", str! "iat", str! "nonce"]) endMap
          pure (.obj kvs)
        else wrongType T (str! "struct ProofJwtBody") : Reader Json) (w ++ '[' :: s) = (.err m l, (endSeq r).2) := by
    rw [bind_ok (got_ws _), skipWs_char hw (by decide)]
    simp only [List.head?_cons]
    rw [if_pos trivial, bind_ok (got_eat _), List.tail_cons]
    refine bind_err ?_
    unfold after
    rw [show visitSeq (str! "ProofJwtBody") 7 0 ((bodyFields x T).map Prod.snd) s = (.err m l, r) from h]
  refine ⟨(endSeq r).2, ?_⟩
  unfold document readBody
  refine bind_err ?_
  cases l with
  | none => exact settle_custom h1
  | some l => exact settle_err h1

theorem array_run_close {x : Ext} {T : Texts} {w s r r' m : Str} {vs : List Json} {l : Nat} (hw : Ws w)
    (h : visitSeq (str! "ProofJwtBody") 7 0 (elements x T) s = (.ok vs, r)) (h' : endSeq r = (.err m (some l), r')) :
    document (readBody x T) (w ++ '[' :: s) = (.err m (some l), r') := by
  unfold document readBody
  refine bind_err (settle_err ?_)
  rw [bind_ok (got_ws _), skipWs_char hw (by decide)]
  simp only [List.head?_cons]
  rw [if_pos trivial, bind_ok (got_eat _), List.tail_cons]
  refine bind_err ?_
  unfold after
  rw [show visitSeq (str! "ProofJwtBody") 7 0 ((bodyFields x T).map Prod.snd) s = (.ok vs, r) from h]
  simp only [h']

/-- The reader of the element at a place is that of the claim of this place. -/
theorem elements_drop (x : Ext) (T : Texts) {i : Nat} {k : Str} (h : claimNames[i]? = some k) :
    ∃ f, bodyField x T k = some f ∧ (elements x T).drop i = f :: (elements x T).drop (i + 1) := by
  have hi : i < 7 := by
    by_contra hi
    rw [List.getElem?_eq_none (by simpa [claimNames] using hi)] at h
    cases h
  have : i = 0 ∨ i = 1 ∨ i = 2 ∨ i = 3 ∨ i = 4 ∨ i = 5 ∨ i = 6 := by omega
  rcases this with rfl | rfl | rfl | rfl | rfl | rfl | rfl <;> cases h <;> exact ⟨_, rfl, rfl⟩

theorem element_run {x : Ext} {T : Texts} {i : Nat} {k w w' : Str} {c : Char} {t : Str} (h : claimNames[i]? = some k)
    (hw : Ws w) (hw' : Ws w') (hc : isWs c = false) (hc' : c ≠ ']') :
    ∃ f, bodyField x T k = some f ∧
      visitSeq (str! "ProofJwtBody") 7 i ((elements x T).drop i) (w ++ (sep (decide (i = 0)) ++ (w' ++ c :: t))) =
        (do
          let v ← f
          let vs ← visitSeq (str! "ProofJwtBody") 7 (i + 1) ((elements x T).drop (i + 1))
          pure (v :: vs) : Reader (List Json)) (c :: t) := by
  obtain ⟨f, hf, e⟩ := elements_drop x T h
  refine ⟨f, hf, ?_⟩
  rw [e, visitSeq]
  rw [bind_ok (nextItem_true (decide (i = 0)) hw hw' hc hc' t)]
  rfl

/-- Elements in front of those that are read. -/
def prepend (vs : List Json) : Out (List Json) × Str → Out (List Json) × Str
  | (.ok ws, r) => (.ok (vs ++ ws), r)
  | o => o

theorem prepend_prepend (vs ws : List Json) (o : Out (List Json) × Str) :
    prepend vs (prepend ws o) = prepend (vs ++ ws) o := by
  obtain ⟨o, r⟩ := o
  cases o <;> simp [prepend]

theorem bind_stuck {β : Type} {f : Reader α} {g : α → Reader β} {s r : Str} (h : f s = (.stuck, r)) :
    (f >>= g) s = (.stuck, r) := by
  have hrun : (f >>= g) s = match f s with
      | (.ok a, r) => g a r
      | (.err m l, r) => (.err m l, r)
      | (.stuck, r) => (.stuck, r) := rfl
  rw [hrun, h]

theorem cons_run (v : Json) (F : Reader (List Json)) (s : Str) :
    (do let vs ← F; pure (v :: vs) : Reader (List Json)) s = prepend [v] (F s) := by
  rcases h : F s with ⟨_ | _ | _, r⟩
  · rw [bind_ok (got_eq_some.2 h)]; rfl
  · rw [bind_err h]; rfl
  · rw [bind_stuck h]; rfl

/-- After a good beginning the rest is read. -/
theorem array_start {x : Ext} {T : Texts} {vs : List Json} {t : Str} (h : ArrayStart x vs t) :
    ∃ w s, Ws w ∧ t = w ++ '[' :: s ∧ ∀ r, (vs ≠ [] → Ends r) →
      visitSeq (str! "ProofJwtBody") 7 0 (elements x T) (s ++ r) =
        prepend vs (visitSeq (str! "ProofJwtBody") 7 vs.length ((elements x T).drop vs.length) r) := by
  induction h with
  | bracket w hw => exact ⟨w, [], hw, rfl, fun r _ => by
      rw [List.nil_append, List.length_nil, List.drop_zero]
      rcases visitSeq (str! "ProofJwtBody") 7 0 (elements x T) r with ⟨o, r⟩
      cases o <;> rfl⟩
  | element vs t w w' u s k v _ hw hw' hu hs hk hv ih =>
    obtain ⟨w0, s0, hw0, rfl, ih⟩ := ih
    obtain rfl := utf8Text_iff.1 hs
    refine ⟨w0, s0 ++ (w ++ ((if vs = [] then [] else [',']) ++ (w' ++ wide u))), hw0, by simp, ?_⟩
    intro r hr
    have hr := hr (by simp)
    have e : (if vs = [] then [] else [',']) = sep (decide (vs.length = 0)) := by
      cases vs <;> rfl
    have hmem : k ∈ claimNames := List.mem_of_getElem? hk
    have hd : depth v ≤ 127 := by
      have := claim_iff.1 hv
      cases v with
      | arr xs =>
        have hmem : k = str! "iss" ∨ k = str! "aud" ∨ k = str! "sub" ∨ k = str! "iat" ∨ k = str! "nonce" ∨ k = str! "nbf" ∨
            k = str! "exp" := by simpa [claimNames] using hmem
        rcases hmem with rfl | rfl | rfl | rfl | rfl | rfl | rfl <;> simp [ClaimValue, IsText, IsInstant] at hv
      | obj xs =>
        have hmem : k = str! "iss" ∨ k = str! "aud" ∨ k = str! "sub" ∨ k = str! "iat" ∨ k = str! "nonce" ∨ k = str! "nbf" ∨
            k = str! "exp" := by simpa [claimNames] using hmem
        rcases hmem with rfl | rfl | rfl | rfl | rfl | rfl | rfl <;> simp [ClaimValue, IsText, IsInstant] at hv
      | _ => simp [depth]
    obtain ⟨c, t', ht', hc1, hc2, -⟩ := val_cons (d := 127) (j := v) ⟨u, hu, hd, rfl⟩
    obtain ⟨f, hf, hrun⟩ := element_run (x := x) (T := T) (t := t' ++ r) hk hw hw' hc1 hc2
    have hgot := (body_field hf).complete (w := []) (t := wide u) (a := v) (r := r) Ws.nil
      ⟨by unfold BodyMember; rw [if_pos hmem]; exact ⟨u, hu, hd, rfl⟩, claim_iff.1 hv⟩ hr
    have hstep : visitSeq (str! "ProofJwtBody") 7 vs.length ((elements x T).drop vs.length)
        (w ++ ((if vs = [] then [] else [',']) ++ (w' ++ (wide u ++ r)))) =
          prepend [v] (visitSeq (str! "ProofJwtBody") 7 (vs.length + 1) ((elements x T).drop (vs.length + 1)) r) := by
      rw [e, ht', List.cons_append, hrun, ← List.cons_append, ← ht']
      simp only [List.nil_append] at hgot
      rw [bind_ok hgot]
      exact cons_run _ _ _
    have := ih (w ++ ((if vs = [] then [] else [',']) ++ (w' ++ (wide u ++ r)))) (fun hne => by
      rw [if_neg hne]
      exact ws_ends hw (by decide))
    rw [hstep, prepend_prepend] at this
    simpa using this

theorem array_start_err {x : Ext} {T : Texts} {vs : List Json} {t : Str} (h : ArrayStart x vs t) :
    ∃ w s, Ws w ∧ t = w ++ '[' :: s ∧ ∀ r m l r', (vs ≠ [] → Ends r) →
      visitSeq (str! "ProofJwtBody") 7 vs.length ((elements x T).drop vs.length) r = (.err m l, r') →
      visitSeq (str! "ProofJwtBody") 7 0 (elements x T) (s ++ r) = (.err m l, r') := by
  obtain ⟨w, s, hw, e, h⟩ := array_start (T := T) h
  refine ⟨w, s, hw, e, fun r m l r' hr hrun => ?_⟩
  rw [h r hr, hrun]
  rfl

theorem array_length {x : Ext} {vs : List Json} {t : Str} (h : ArrayStart x vs t) : vs.length ≤ 7 := by
  cases h with
  | bracket => simp
  | element vs t w w' u s k v _ hw hw' hu hs hk hv =>
    have hi : vs.length < 7 := by
      by_contra hi
      rw [List.getElem?_eq_none (by simpa [claimNames] using hi)] at hk
      cases hk
    simp
    omega

end Reading
end Oid4vci
