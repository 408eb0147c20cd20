import Verif.Lemmas.UnreadableReport
import Verif.Spec.HeaderReport

/-! What is reported about a header that goes wrong after a good beginning. -/

namespace Oid4vci
namespace Reading

open Json Serde
open Spec hiding value

/-- Members of the header that are no fields. -/
def kept : Reader Json := fueled fun n => value n (Json.maxDepth - 1)

theorem header_run {T : Texts} {w s r m : Str} {l : Option Nat} (hw : Ws w)
    (h : visitMap (headerField T) kept [str! "typ", str! "alg"] s = (.err m l, r)) :
    ∃ r', document (readHeader T) (w ++ '{' :: s) = (.err m (some (l.getD (endMap r).2.length)), r') := by
  have h1 : (do
      match ← ws with
      | none => ahead eofValue
      | some c =>
        if c = '{' then do
          eat
          let kvs ← after (visitMap (headerField T) (fueled fun n => value n (Json.maxDepth - 1))
            [str! "typ", str! "alg"]) endMap
          pure (.obj kvs)
        else wrongType T (str! "struct ProofJwtHeader") : Reader Json) (w ++ '{' :: s) = (.err m l, (endMap r).2) := by
    rw [bind_ok (got_ws _), skipWs_char hw (by decide)]
    simp only [List.head?_cons]
    rw [if_pos trivial, bind_ok (got_eat _), List.tail_cons]
    refine bind_err ?_
    unfold after
    rw [show visitMap (headerField T) (fueled fun n => value n (Json.maxDepth - 1)) [str! "typ", str! "alg"] s =
      (.err m l, r) from h]
  refine ⟨(endMap r).2, ?_⟩
  unfold document readHeader
  refine bind_err ?_
  cases l with
  | none => exact settle_custom h1
  | some l => exact settle_err h1

theorem algorithm_iff {v : Json} : (∃ a, AlgorithmDoc v a) ↔ IsVariant algNames v := by
  have h : ∀ s, (∃ a, (a, s) ∈ algorithmNames) ↔ s ∈ algNames := by
    intro s
    have e : algNames = algorithmNames.map Prod.snd := by decide
    rw [e]
    simp
  unfold AlgorithmDoc IsVariant
  constructor
  · rintro ⟨a, s, hs, hv⟩; exact ⟨s, (h s).1 ⟨a, hs⟩, hv⟩
  · rintro ⟨s, hs, hv⟩
    obtain ⟨a, ha⟩ := (h s).2 hs
    exact ⟨a, s, ha, hv⟩

theorem headerValue_iff {k : Str} {v : Json} : HeaderValue k v ↔ HeaderMember k v := by
  unfold HeaderValue HeaderMember
  rw [algorithm_iff]
  simp [IsText, IsStr]

theorem typAlg_iff {T : Texts} {k : Str} : (headerField T k).isSome ↔ k ∈ typAlg := by
  rw [headerField_isSome]
  simp [typAlg]

theorem headerStart_lead (T : Texts) {kvs : List (Str × Json)} {t : Str} (h : HeaderStart kvs t) :
    ∃ w lead w1 w2 b, t = w ++ '{' :: (lead ++ (w1 ++ (sep b ++ w2))) ∧ Ws w ∧ Ws w1 ∧ Ws w2 ∧
      Lead (fun k v t => Val 126 v t ∧ HeaderMember k v) true kvs lead b ∧ Fresh (headerField T) [] kvs ∧
      (b = true → kvs = []) := by
  induction h with
  | brace w w' hw hw' => exact ⟨w, [], w', [], true, by simp [sep], hw, hw', Ws.nil, .nil true, trivial, fun _ => rfl⟩
  | member kvs t k v s u w w' _ hs hd hu hv hk hw hw' ih =>
    obtain ⟨w0, lead, w1, w2, b, rfl, hw0, hw1, hw2, hl, hf, -⟩ := ih
    obtain rfl := utf8Text_iff.1 hu
    cases hs with
    | mk k v n x1 x2 y hn hx1 hx2 hy =>
    obtain ⟨q, hq, rfl⟩ := hn
    refine ⟨w0, _, w, w', false, ?_, hw0, hw, hw', lead_snoc hl hw1 hw2 hq hx1 hx2 ⟨⟨y, hy, hd, rfl⟩, headerValue_iff.1 hv⟩,
      fresh_snoc hf (fun h => ⟨by simp, hk (typAlg_iff.1 h)⟩), by simp⟩
    rw [wide_append, wide_append, wide_quoted, wide_ascii (by decide), wide_append, wide_ws hx1, wide_ws hx2]
    simp [sep]

theorem header_start_run {T : Texts} {kvs : List (Str × Json)} {t tail m r : Str} {l : Option Nat}
    (h : HeaderStart kvs t) (htail : ∀ (n : Nat) (b : Bool) (w w' : Str), Ws w → Ws w' →
      members (headerField T) kept (n + 1) b (seenAfter (headerField T) kvs []) (w ++ (sep b ++ (w' ++ '"' :: tail))) =
        (.err m l, r)) :
    ∃ r', document (readHeader T) (t ++ '"' :: tail) = (.err m (some (l.getD (endMap r).2.length)), r') := by
  obtain ⟨w, lead, w1, w2, b, rfl, hw, hw1, hw2, hl, hf, -⟩ := headerStart_lead T h
  have hend : Ends (w1 ++ (sep b ++ (w2 ++ '"' :: tail))) := by
    cases b with
    | true =>
      have := ws_ends (c := '"') (t := tail) (Ws.append hw1 hw2) (by decide)
      simpa [sep] using this
    | false => exact ws_ends (c := ',') hw1 (by decide)
  have := lead_members (fld := headerField T) (other := kept) (fun k f => header_field) (fun k => header_other) hend hl
    (2 * (lead ++ (w1 ++ (sep b ++ (w2 ++ '"' :: tail)))).length + 2) [] hf (by simp only [List.length_append]; omega)
    (fun n => htail n b w1 w2 hw1 hw2)
  have e : w ++ '{' :: (lead ++ (w1 ++ (sep b ++ w2))) ++ '"' :: tail =
      w ++ '{' :: (lead ++ (w1 ++ (sep b ++ (w2 ++ '"' :: tail)))) := by simp
  rw [e]
  refine header_run hw ?_
  unfold visitMap
  refine bind_err ?_
  exact this

theorem header_missing_run {T : Texts} {kvs : List (Str × Json)} {w u t k rest : Str} {before after' : List Str}
    (hw : Ws w) (hu : ValueText (.obj kvs) u) (hd : depth (.obj kvs) ≤ 127) (ht : Utf8Text u t)
    (hv : ∀ p ∈ kvs, HeaderValue p.1 p.2) (hc : ∀ k ∈ typAlg, (kvs.map Prod.fst).count k ≤ 1)
    (hl : typAlg = before ++ k :: after')
    (hb : ∀ k' ∈ before, k' ∈ kvs.map Prod.fst) (hk : k ∉ kvs.map Prod.fst) :
    ∃ r', document (readHeader T) (w ++ (t ++ rest)) = (.err (missingField k) (some rest.length), r') := by
  obtain ⟨d', t', hd', hp, rfl⟩ := val_obj.1 ⟨u, hu, hd, utf8Text_iff.1 ht⟩
  obtain rfl : 126 = d' := by omega
  have hp' := pairsOf_and.2 ⟨hp, fun p hp => headerValue_iff.1 (hv p hp)⟩
  have hf : Fresh (headerField T) [] kvs := (fresh_iff _ _).2 fun k hk =>
    ⟨by rw [occurrences_count]; exact hc k (typAlg_iff.1 hk), by simp⟩
  have h1 := members_complete (fld := headerField T) (other := kept) (fun k f => header_field) (fun k => header_other) hp'
    (2 * (t' ++ '}' :: rest).length + 2) [] rest hf (by simp only [List.length_append]; omega)
  have e : w ++ ('{' :: (t' ++ ['}']) ++ rest) = w ++ '{' :: (t' ++ '}' :: rest) := by simp
  rw [e]
  have h2 : visitMap (headerField T) kept [str! "typ", str! "alg"] (t' ++ '}' :: rest) =
      (.err (missingField k) none, '}' :: rest) := by
    unfold visitMap
    rw [bind_ok (show got (fueled fun n => members (headerField T) kept n true []) _ = _ from h1)]
    have : [str! "typ", str! "alg"].find? (fun k => !(kvs.map Prod.fst).contains k) = some k := by
      rw [List.find?_eq_some_iff_append]
      refine ⟨by simpa using hk, before, after', hl, fun k' hk' => by simpa using hb k' hk'⟩
    rw [this]
    rfl
  obtain ⟨r', h3⟩ := header_run (T := T) hw h2
  refine ⟨r', ?_⟩
  rw [h3]
  have : endMap ('}' :: rest) = (.ok (), rest) := got_eq_some.1 (endMap_cons rest)
  rw [this]
  rfl

/-- A name that is no algorithm. -/
theorem variant_unknown (T : Texts) {v u w r : Str} (hw : Ws w) (hu : CharsText v u) (hv : v ∉ algNames) :
    variant T algNames (w ++ '"' :: (wide u ++ '"' :: r)) = (.err (unknownVariant v algNames) (some r.length), r) := by
  unfold variant
  rw [bind_ok (got_ws _), skipWs_char hw (by decide)]
  simp only [List.head?_cons]
  rw [if_neg (by decide), if_pos trivial]
  refine bind_err ?_
  unfold variantName visitStr
  refine settle_custom ?_
  rw [bind_ok (got_ws _), show skipWs ('"' :: (wide u ++ '"' :: r)) = '"' :: (wide u ++ '"' :: r) from
    skipWs_char Ws.nil (by decide)]
  simp only [List.head?_cons]
  rw [if_pos trivial, bind_ok (got_eat _), List.tail_cons, bind_ok (string_complete hu r), if_neg hv]
  rfl

/-- Neither a string nor an object. -/
theorem variant_wrong (T : Texts) {v : Json} {u w r : Str} (hw : Ws w) (hv : ValueText v u)
    (hstr : ∀ a, v ≠ .str a) (hobj : ∀ kvs, v ≠ .obj kvs) :
    ∃ r', variant T algNames (w ++ (wide u ++ r)) = (.err expectedValue (some ((wide u ++ r).length - 1)), r') := by
  obtain ⟨x, t, ht, h1, -⟩ := val_cons (d := depth v) ⟨u, hv, Nat.le_refl _, rfl⟩
  have hx : x ≠ '"' ∧ x ≠ '{' := by
    have hdig : ∀ {n u}, NumberText n u → ∀ {x t}, u = x :: t → x ≠ '"' ∧ x ≠ '{' := by
      intro n u hn x t ht
      rcases number_complete hn (r := []) (by intro c hc; simp at hc) with ⟨t', rfl, -⟩ | ⟨c, t', rfl, hd, -⟩
      · cases ht; decide
      · cases ht
        constructor <;> (rintro rfl; exact absurd hd (by decide))
    cases hv with
    | null => cases ht; decide
    | true => cases ht; decide
    | false => cases ht; decide
    | integer _ _ hn => rw [wide_eq_self (number_ascii hn)] at ht; exact hdig hn ht
    | float _ _ hn _ => rw [wide_eq_self (number_ascii hn)] at ht; exact hdig hn ht
    | string => exact absurd rfl (hstr _)
    | emptyArray => rw [wide_ascii (by decide)] at ht; cases ht; decide
    | array => rw [wide_ascii (by decide)] at ht; cases ht; decide
    | emptyObject => exact absurd rfl (hobj _)
    | object => exact absurd rfl (hobj _)
  have hsk : skipWs (w ++ (wide u ++ r)) = wide u ++ r := by
    rw [ht, List.cons_append]; exact skipWs_char hw h1
  refine ⟨wide u ++ r, ?_⟩
  unfold variant
  rw [bind_ok (got_ws _), hsk, ht, List.cons_append]
  simp only [List.head?_cons]
  rw [if_neg hx.2, if_neg hx.1]
  rfl

theorem oneOf_algorithms : oneOf algNames = algorithmList := by decide +kernel

end Reading
end Oid4vci
