import Verif.Props.SpoiltHeader

/-!
C154, continued: values that are neither strings nor anything else where a claim or the type of the header has its value.
-/

namespace Oid4vci

open Spec Reading
open Json (octets wide)

namespace Reading

theorem wrongType_misspelt {T : Texts} {y m rest : Str} (hy : Misspelt y m) :
    ∃ r, (y.head? = some 'n' → r = rest) ∧ ∀ e, (wrongType T e : Reader Json) (y ++ rest) = (.err m (some rest.length), r) := by
  cases hy with
  | literal word p d c hword hp hd hc =>
    match p, hp, hd with
    | a :: p, _, hd =>
      refine ⟨rest, fun _ => rfl, fun e => settle_placed ?_⟩
      simp only [List.mem_cons, List.not_mem_nil, or_false] at hword
      rw [List.append_assoc, List.cons_append, List.cons_append, List.nil_append]
      rw [List.cons_append] at hd
      rw [bind_ok (got_peek _)]
      rcases hword with rfl | rfl | rfl
      · obtain ⟨rfl, hd'⟩ := List.cons_prefix_cons.1 hd
        exact (bind_ok (got_eat _)).trans (bind_err (ident_bad hc hd'))
      · obtain ⟨rfl, hd'⟩ := List.cons_prefix_cons.1 hd
        exact (bind_ok (got_eat _)).trans (bind_err (ident_bad hc hd'))
      · obtain ⟨rfl, hd'⟩ := List.cons_prefix_cons.1 hd
        exact (bind_ok (got_eat _)).trans (bind_err (ident_bad hc hd'))
  | other c hws hc =>
    have hne : ∀ d ∈ str! "\"[{-0123456789ntf", c ≠ d := by rintro d hd rfl; exact hc hd
    have hdig : Json.isDigit c = false := not_digit fun h => by
      have : ∀ c ∈ str! "0123456789", c ∈ str! "\"[{-0123456789ntf" := by decide
      exact hc (this c h)
    refine ⟨c :: rest, fun h => absurd (by simpa using h) (hne 'n' (by decide)), fun e => settle_placed ?_⟩
    rw [List.cons_append, List.nil_append, bind_ok (got_peek _)]
    simp only [List.head?_cons]
    rw [if_neg (hne _ (by decide)), if_neg (hne _ (by decide)), if_neg (hne _ (by decide)), if_neg (hne _ (by decide)),
      if_neg (by simp [hdig]), if_neg (hne _ (by decide)), if_neg (hne _ (by decide)), if_neg (hne _ (by decide))]
    rfl

theorem wrongType_signed {α : Type} {T : Texts} {ex : Str} {neg : Bool} {n : Nat} {i y m r : Str} {l : Nat}
    (hi : IntText n i) (h : number neg (i ++ y) = (.err m (some l), r)) :
    (wrongType T ex : Reader α) ((if neg then ['-'] else []) ++ (i ++ y)) = (.err m (some l), r) := by
  obtain ⟨n1, n2, -⟩ := Json.intText_iff.1 hi
  match i, n1, n2 with
  | c :: i, _, n2 =>
    have hc := n2 c (by simp)
    have hne : ∀ d : Char, Json.isDigit d = false → c ≠ d := by
      rintro d hd rfl; rw [hc] at hd; cases hd
    refine settle_placed ?_
    rw [bind_ok (got_peek _)]
    cases neg with
    | true => exact (bind_ok (got_eat _)).trans (bind_err h)
    | false =>
      simp only [Bool.false_eq_true, if_false, List.nil_append, List.cons_append, List.head?_cons]
      rw [if_neg (hne _ (by decide)), if_neg (hne _ (by decide)), if_neg (hne _ (by decide)),
        if_neg (hne _ (by decide)), if_pos hc]
      exact bind_err h

theorem wrongType_unfinished {T : Texts} {y rest : Str} {c : Char} (hy : Unfinished y)
    (hc : Json.isDigit c = false) (hc' : y.getLast? ∈ [some 'e', some 'E'] → c ∉ ['+', '-']) :
    ∃ r, ∀ ex, (wrongType T ex : Reader Json) (y ++ c :: rest) = (.err (str! "invalid number") (some rest.length), r) := by
  cases hy with
  | minus =>
    have : number true (c :: rest) = (.err (str! "invalid number") (some rest.length), rest) := by
      unfold number
      refine bind_err ?_
      unfold integer
      rw [bind_ok (got_next _)]
      simp only [List.head?_cons, List.tail_cons]
      rw [if_neg (by rintro rfl; revert hc; decide), if_neg (by simp [hc])]
      rfl
    refine ⟨rest, fun ex => settle_placed ?_⟩
    rw [bind_ok (got_peek _)]
    exact (bind_ok (got_eat _)).trans (bind_err this)
  | point neg n s hs =>
    simp only [List.append_assoc]
    exact ⟨_, fun ex => wrongType_signed hs (number_stop hs (by simp; decide) (fraction_point hc))⟩
  | exponent neg n s f sign e hs hf he hsign =>
    have hlast : sign = [] → c ∉ ['+', '-'] := by
      rintro rfl
      refine hc' ?_
      rw [List.getLast?_append, List.getLast?_append, List.getLast?_append]
      simp only [List.mem_cons, List.not_mem_nil, or_false] at he
      rcases he with rfl | rfl <;> simp
    refine ⟨rest, fun ex => ?_⟩
    simp only [List.append_assoc, List.cons_append]
    exact wrongType_signed hs
      (number_stop hs (frac_head hf he) (fraction_exponent hf he fun fs => exponent_bad he hsign hc hlast))

theorem visitStr_broken {α : Type} {T : Texts} {expected : Str} {visit : Str → Reader α} {w s m r : Str} {c : Char}
    {l : Nat} (hw : Ws w) (hc : Json.isWs c = false) (hq : c ≠ '"')
    (h : (wrongType T expected : Reader α) (c :: s) = (.err m (some l), r)) :
    visitStr T expected visit (w ++ c :: s) = (.err m (some l), r) := by
  refine settle_placed ?_
  rw [bind_ok (got_ws _), skipWs_char hw hc]
  simp only [List.head?_cons]
  rw [if_neg hq, h]

theorem option_broken {f : Reader Json} {w s m r : Str} {c : Char} {l : Nat} (hw : Ws w) (hc : Json.isWs c = false)
    (hn : c = 'n' → ident (str! "ull") s = (.err m (some l), r)) (h : f (c :: s) = (.err m (some l), r)) :
    option f (w ++ c :: s) = (.err m (some l), r) := by
  unfold option
  rw [bind_ok (got_ws _), skipWs_char hw hc]
  by_cases h1 : c = 'n'
  · subst h1
    exact (bind_ok (got_eat _)).trans (bind_err (hn rfl))
  · simp only [List.head?_cons]
    refine (congrFun (?_ : _ = f) _).trans h
    split
    · rename_i h2; exact absurd (Option.some.inj h2) h1
    · rfl

theorem field_broken (x : Ext) (T : Texts) {k w s m r : Str} {c : Char} {l : Nat} (hk : k ∈ claimNames) (hw : Ws w)
    (hc : Json.isWs c = false) (hq : c ≠ '"') (hn : c = 'n' → ident (str! "ull") s = (.err m (some l), r))
    (h : ∀ e, (wrongType T e : Reader Json) (c :: s) = (.err m (some l), r)) :
    ∃ f, bodyField x T k = some f ∧ f (w ++ c :: s) = (.err m (some l), r) := by
  have h1 := fun e (g : Str → Reader Json) => visitStr_broken (visit := g) hw hc hq (h e)
  have h2 := fun e (g : Str → Reader Json) => visitStr_broken (visit := g) Ws.nil hc hq (h e)
  simp only [claimNames, List.mem_cons, List.not_mem_nil, or_false] at hk
  rcases hk with rfl | rfl | rfl | rfl | rfl | rfl | rfl
  · exact ⟨_, rfl, option_broken hw hc hn (h2 _ _)⟩
  · exact ⟨_, rfl, h1 _ _⟩
  · exact ⟨_, rfl, option_broken hw hc hn (h2 _ _)⟩
  · exact ⟨_, rfl, h1 _ _⟩
  · exact ⟨_, rfl, h1 _ _⟩
  · exact ⟨_, rfl, option_broken hw hc hn (h2 _ _)⟩
  · exact ⟨_, rfl, option_broken hw hc hn (h2 _ _)⟩

theorem claim_stop {x : Ext} {T : Texts} {b : Bytes} {kvs : List (Str × Json)} {t k n s w a m r0 : Str} {l : Nat}
    (hb : Octets b (t ++ (s ++ (w ++ ':' :: a)))) (ht : BodyStart x kvs t) (hin : k ∉ kvs.map Prod.fst)
    (hn : StringText k n) (hs : Utf8Text n s) (hw : Ws w)
    (h : ∃ f, bodyField x T k = some f ∧ f a = (.err m (some l), r0)) :
    ∃ text, bodyReport x T b = some text ∧ Report b m (b.length - l) text := by
  obtain ⟨q, hq, rfl⟩ := hn
  obtain rfl := Json.utf8Text_iff.1 hs
  obtain ⟨f, hf, h⟩ := h
  rw [Json.wide_quoted] at *
  have e : t ++ ('"' :: (wide q ++ ['"']) ++ (w ++ ':' :: a)) = t ++ '"' :: (wide q ++ '"' :: (w ++ ':' :: a)) := by simp
  obtain ⟨r, h⟩ := start_run (T := T) ht (fun m b w1 w2 hw1 hw2 => lead_value m hf
    (fun hm => (mem_seenAfter.1 hm).elim (by simp) fun h => hin h.2) hw1 hw2 hq hw h)
  rw [Option.getD_some, ← e] at h
  exact body_report hb h

theorem header_stop {T : Texts} {b : Bytes} {kvs : List (Str × Json)} {t k n s w a m r0 : Str} {l : Nat}
    {f : Reader Json} (hb : Octets b (t ++ (s ++ (w ++ ':' :: a)))) (ht : HeaderStart kvs t)
    (hin : k ∉ kvs.map Prod.fst) (hn : StringText k n) (hs : Utf8Text n s) (hw : Ws w) (hf : headerField T k = some f)
    (h : f a = (.err m (some l), r0)) :
    ∃ text, headerReport T b = some text ∧ Report b m (b.length - l) text := by
  obtain ⟨q, hq, rfl⟩ := hn
  obtain rfl := Json.utf8Text_iff.1 hs
  rw [Json.wide_quoted] at *
  have e : t ++ ('"' :: (wide q ++ ['"']) ++ (w ++ ':' :: a)) = t ++ '"' :: (wide q ++ '"' :: (w ++ ':' :: a)) := by simp
  obtain ⟨r, h⟩ := header_start_run (T := T) ht (fun m b w1 w2 hw1 hw2 => lead_value m hf
    (fun hm => (mem_seenAfter.1 hm).elim (by simp) fun h => hin h.2) hw1 hw2 hq hw h)
  rw [Option.getD_some, ← e] at h
  exact header_report hb h

theorem misspelt_head {y m : Str} (hy : Misspelt y m) : ∃ c s, y = c :: s ∧ Json.isWs c = false ∧ c ≠ '"' ∧
    (c = 'n' → ∀ rest, ident (str! "ull") (s ++ rest) = (.err m (some rest.length), rest)) := by
  cases hy with
  | literal word p d c hword hp hd hc =>
    match p, hp, hd with
    | a :: p, _, hd =>
      refine ⟨a, p ++ [c], rfl, ?_⟩
      simp only [List.mem_cons, List.not_mem_nil, or_false] at hword
      rw [List.cons_append] at hd
      rcases hword with rfl | rfl | rfl
      · obtain ⟨rfl, hd'⟩ := List.cons_prefix_cons.1 hd
        refine ⟨by decide, by decide, fun _ rest => ?_⟩
        rw [List.append_assoc]
        exact ident_bad hc hd'
      · obtain ⟨rfl, hd'⟩ := List.cons_prefix_cons.1 hd
        exact ⟨by decide, by decide, fun h => absurd h (by decide)⟩
      · obtain ⟨rfl, hd'⟩ := List.cons_prefix_cons.1 hd
        exact ⟨by decide, by decide, fun h => absurd h (by decide)⟩
  | other c hws hc =>
    refine ⟨c, [], rfl, not_ws hws, ?_, ?_⟩
    · rintro rfl; exact hc (by decide)
    · rintro rfl; exact absurd (by decide) hc

theorem unfinished_head {y : Str} (hy : Unfinished y) :
    ∃ c s, y = c :: s ∧ Json.isWs c = false ∧ c ≠ '"' ∧ c ≠ 'n' := by
  have hdig : ∀ c, Json.isDigit c = true → Json.isWs c = false ∧ c ≠ '"' ∧ c ≠ 'n' := by
    intro c hc
    have hne : ∀ d : Char, Json.isDigit d = false → c ≠ d := by
      rintro d hd rfl; rw [hc] at hd; cases hd
    exact ⟨by simp [Json.isWs, hne ' ' (by decide), hne '\t' (by decide), hne '\n' (by decide), hne '\r' (by decide)],
      hne _ (by decide), hne _ (by decide)⟩
  have key : ∀ (neg : Bool) (n : Nat) (i z : Str), IntText n i → ∃ c s, (if neg then ['-'] else []) ++ (i ++ z) = c :: s ∧
      Json.isWs c = false ∧ c ≠ '"' ∧ c ≠ 'n' := by
    intro neg n i z hi
    obtain ⟨n1, n2, -⟩ := Json.intText_iff.1 hi
    cases neg with
    | true => exact ⟨'-', i ++ z, rfl, by decide, by decide, by decide⟩
    | false =>
      match i, n1, n2 with
      | c :: i, _, n2 => exact ⟨c, i ++ z, rfl, hdig c (n2 c (by simp))⟩
  cases hy with
  | minus => exact ⟨'-', [], rfl, by decide, by decide, by decide⟩
  | point neg n s hs => exact key neg n s _ hs
  | exponent neg n s f sign e hs hf he hsign => exact key neg n s _ hs

end Reading

/-- C154. Something that is no value where a claim has its value: the place is behind the first wrong octet. -/
theorem C154_value_claim (x : Ext) (T : Texts) (b : Bytes) (kvs : List (Str × Json)) (t k n s w w' y m rest : Str)
    (hb : Octets b (t ++ (s ++ (w ++ ':' :: (w' ++ (y ++ rest)))))) (ht : BodyStart x kvs t) (hk : k ∈ claimNames)
    (hin : k ∉ kvs.map Prod.fst) (hn : StringText k n) (hs : Utf8Text n s) (hw : Ws w) (hw' : Ws w')
    (hy : Misspelt y m) :
    ∃ text, bodyReport x T b = some text ∧
      Report b m (t.length + s.length + w.length + 1 + w'.length + y.length) text := by
  have hlen := octets_length hb
  obtain ⟨r0, hr, h0⟩ := wrongType_misspelt (T := T) (rest := rest) hy
  obtain ⟨c, y', rfl, h1, h2, h3⟩ := misspelt_head hy
  have hf := field_broken x T hk hw' h1 h2 (fun h => by subst h; rw [hr rfl]; exact h3 rfl rest) h0
  obtain ⟨text, g1, g2⟩ := claim_stop hb ht hin hn hs hw hf
  refine ⟨text, g1, ?_⟩
  simp only [List.length_append, List.length_cons] at hlen ⊢
  rw [show b.length - rest.length = t.length + s.length + w.length + 1 + w'.length + (y'.length + 1) by omega] at g2
  exact g2

/-- C154. A number without its digits where a claim has its value, unless the body ends there (C149). -/
theorem C154_number_claim (x : Ext) (T : Texts) (b : Bytes) (kvs : List (Str × Json)) (t k n s w w' y rest : Str)
    (c : Char) (hb : Octets b (t ++ (s ++ (w ++ ':' :: (w' ++ (y ++ c :: rest)))))) (ht : BodyStart x kvs t)
    (hk : k ∈ claimNames) (hin : k ∉ kvs.map Prod.fst) (hn : StringText k n) (hs : Utf8Text n s) (hw : Ws w)
    (hw' : Ws w') (hy : Unfinished y) (hc : c ∉ str! "0123456789")
    (hc' : y.getLast? ∈ [some 'e', some 'E'] → c ∉ ['+', '-']) :
    ∃ text, bodyReport x T b = some text ∧
      Report b (str! "invalid number") (t.length + s.length + w.length + 1 + w'.length + y.length + 1) text := by
  have hlen := octets_length hb
  obtain ⟨r0, h0⟩ := wrongType_unfinished (T := T) (rest := rest) hy (not_digit hc) hc'
  obtain ⟨d, y', rfl, h1, h2, h3⟩ := unfinished_head hy
  have hf := field_broken x T hk hw' h1 h2 (fun h => absurd h h3) h0
  obtain ⟨text, g1, g2⟩ := claim_stop hb ht hin hn hs hw hf
  refine ⟨text, g1, ?_⟩
  simp only [List.length_append, List.length_cons] at hlen ⊢
  rw [show b.length - rest.length = t.length + s.length + w.length + 1 + w'.length + (y'.length + 1) + 1 by omega] at g2
  exact g2

/-- C154. The same for the `typ` of the header. -/
theorem C154_value_typ (T : Texts) (b : Bytes) (kvs : List (Str × Json)) (t n s w w' y m rest : Str)
    (hb : Octets b (t ++ (s ++ (w ++ ':' :: (w' ++ (y ++ rest)))))) (ht : HeaderStart kvs t)
    (hin : str! "typ" ∉ kvs.map Prod.fst) (hn : StringText (str! "typ") n) (hs : Utf8Text n s) (hw : Ws w)
    (hw' : Ws w') (hy : Misspelt y m) :
    ∃ text, headerReport T b = some text ∧
      Report b m (t.length + s.length + w.length + 1 + w'.length + y.length) text := by
  have hlen := octets_length hb
  obtain ⟨r0, -, h0⟩ := wrongType_misspelt (T := T) (rest := rest) hy
  obtain ⟨c, y', rfl, h1, h2, -⟩ := misspelt_head hy
  have hf : readText T (w' ++ (c :: y' ++ rest)) = (.err m (some rest.length), r0) := visitStr_broken hw' h1 h2 (h0 _)
  obtain ⟨text, g1, g2⟩ := header_stop hb ht hin hn hs hw (T := T) rfl hf
  refine ⟨text, g1, ?_⟩
  simp only [List.length_append, List.length_cons] at hlen ⊢
  rw [show b.length - rest.length = t.length + s.length + w.length + 1 + w'.length + (y'.length + 1) by omega] at g2
  exact g2

/-- C154. The same for a number without its digits. -/
theorem C154_number_typ (T : Texts) (b : Bytes) (kvs : List (Str × Json)) (t n s w w' y rest : Str) (c : Char)
    (hb : Octets b (t ++ (s ++ (w ++ ':' :: (w' ++ (y ++ c :: rest)))))) (ht : HeaderStart kvs t)
    (hin : str! "typ" ∉ kvs.map Prod.fst) (hn : StringText (str! "typ") n) (hs : Utf8Text n s) (hw : Ws w)
    (hw' : Ws w') (hy : Unfinished y) (hc : c ∉ str! "0123456789")
    (hc' : y.getLast? ∈ [some 'e', some 'E'] → c ∉ ['+', '-']) :
    ∃ text, headerReport T b = some text ∧
      Report b (str! "invalid number") (t.length + s.length + w.length + 1 + w'.length + y.length + 1) text := by
  have hlen := octets_length hb
  obtain ⟨r0, h0⟩ := wrongType_unfinished (T := T) (rest := rest) hy (not_digit hc) hc'
  obtain ⟨d, y', rfl, h1, h2, -⟩ := unfinished_head hy
  have hf : readText T (w' ++ (d :: y' ++ c :: rest)) = (.err (str! "invalid number") (some rest.length), r0) :=
    visitStr_broken hw' h1 h2 (h0 _)
  obtain ⟨text, g1, g2⟩ := header_stop hb ht hin hn hs hw (T := T) rfl hf
  refine ⟨text, g1, ?_⟩
  simp only [List.length_append, List.length_cons] at hlen ⊢
  rw [show b.length - rest.length = t.length + s.length + w.length + 1 + w'.length + (y'.length + 1) + 1 by omega] at g2
  exact g2

/-- C154. A spoilt string where the header has its `alg`. -/
theorem C154_text_alg (T : Texts) (b : Bytes) (kvs : List (Str × Json)) (t n s w w' v u z y m rest : Str)
    (j : Nat) (hb : Octets b (t ++ (s ++ (w ++ ':' :: (w' ++ '"' :: (z ++ (y ++ rest))))))) (ht : HeaderStart kvs t)
    (hin : str! "alg" ∉ kvs.map Prod.fst) (hn : StringText (str! "alg") n) (hs : Utf8Text n s) (hw : Ws w)
    (hw' : Ws w') (hu : CharsText v u) (hz : Utf8Text u z) (hy : Spoilt y j m) (hj : j ≤ rest.length) :
    ∃ text, headerReport T b = some text ∧
      Report b m (t.length + s.length + w.length + 1 + w'.length + 1 + z.length + y.length) text := by
  have hlen := octets_length hb
  obtain rfl := Json.utf8Text_iff.1 hz
  have hf : variant T algNames (w' ++ '"' :: (wide u ++ (y ++ rest))) = (.err m (some rest.length), rest) := by
    have h1 : variantName T algNames ('"' :: (wide u ++ (y ++ rest))) = (.err m (some rest.length), rest) :=
      visitStr_spoilt Ws.nil hu hy hj
    unfold variant
    rw [bind_ok (got_ws _), skipWs_char hw' (by decide)]
    simp only [List.head?_cons]
    rw [if_neg (by decide), if_pos trivial, bind_err h1]
  obtain ⟨text, g1, g2⟩ := header_stop hb ht hin hn hs hw (T := T) rfl hf
  refine ⟨text, g1, ?_⟩
  simp only [List.length_append, List.length_cons] at hlen ⊢
  rw [show b.length - rest.length = t.length + s.length + w.length + 1 + w'.length + 1 + (wide u).length + y.length by
    omega] at g2
  exact g2

/-- C154. Anything that begins neither a string nor an object where the header has its `alg`, even if it is a value. -/
theorem C154_value_alg (T : Texts) (b : Bytes) (kvs : List (Str × Json)) (t n s w w' rest : Str) (c : Char)
    (hb : Octets b (t ++ (s ++ (w ++ ':' :: (w' ++ c :: rest))))) (ht : HeaderStart kvs t)
    (hin : str! "alg" ∉ kvs.map Prod.fst) (hn : StringText (str! "alg") n) (hs : Utf8Text n s) (hw : Ws w)
    (hw' : Ws w') (hc : c ∉ [' ', '\t', '\n', '\r', '{', '"']) :
    ∃ text, headerReport T b = some text ∧
      Report b (str! "expected value") (t.length + s.length + w.length + 1 + w'.length + 1) text := by
  have hlen := octets_length hb
  have hf : variant T algNames (w' ++ c :: rest) = (.err (str! "expected value") (some rest.length), c :: rest) := by
    unfold variant
    rw [bind_ok (got_ws _), skipWs_char hw' (not_ws (by simp at hc ⊢; tauto))]
    simp only [List.head?_cons]
    rw [if_neg (by simp at hc; tauto), if_neg (by simp at hc; tauto)]
    rfl
  obtain ⟨text, g1, g2⟩ := header_stop hb ht hin hn hs hw (T := T) rfl hf
  refine ⟨text, g1, ?_⟩
  simp only [List.length_append, List.length_cons] at hlen
  rw [show b.length - rest.length = t.length + s.length + w.length + 1 + w'.length + 1 by omega] at g2
  exact g2

namespace Ex

example (b' : Bytes) : ∃ text, headerReport texts (utf8Encode (str! "{\"alg\":n") ++ b') = some text ∧
    Report (utf8Encode (str! "{\"alg\":n") ++ b') (str! "expected value") 8 text :=
  C154_value_alg texts _ [] ['{'] (str! "\"alg\"") (str! "\"alg\"") [] [] (octets b') 'n'
    (Json.octets_iff.2 (by simp only [octets, List.map_append]; rfl)) (.brace [] [] Ws.nil Ws.nil) (by simp)
    ⟨_, plain (str! "alg") (by decide), rfl⟩ (Json.utf8Text_iff.2 (by decide)) Ws.nil Ws.nil (by decide)

example (b' : Bytes) : ∃ text, headerReport texts (utf8Encode (str! "{\"typ\":nU") ++ b') = some text ∧
    Report (utf8Encode (str! "{\"typ\":nU") ++ b') (str! "expected ident") 9 text :=
  C154_value_typ texts _ [] ['{'] (str! "\"typ\"") (str! "\"typ\"") [] [] (str! "nU") _ (octets b')
    (Json.octets_iff.2 (by simp only [octets, List.map_append]; rfl)) (.brace [] [] Ws.nil Ws.nil) (by simp)
    ⟨_, plain (str! "typ") (by decide), rfl⟩ (Json.utf8Text_iff.2 (by decide)) Ws.nil Ws.nil
    (.literal (str! "null") ['n'] 'u' 'U' (by decide) (by decide) (by decide) (by decide))

example (b' : Bytes) : ∃ text, headerReport texts (utf8Encode (str! "{\"typ\":1e}") ++ b') = some text ∧
    Report (utf8Encode (str! "{\"typ\":1e}") ++ b') (str! "invalid number") 10 text :=
  C154_number_typ texts _ [] ['{'] (str! "\"typ\"") (str! "\"typ\"") [] [] (str! "1e") (octets b') '}'
    (Json.octets_iff.2 (by simp only [octets, List.map_append]; rfl)) (.brace [] [] Ws.nil Ws.nil) (by simp)
    ⟨_, plain (str! "typ") (by decide), rfl⟩ (Json.utf8Text_iff.2 (by decide)) Ws.nil Ws.nil one_e (by decide)
    (fun _ => by decide)

example (b' : Bytes) : ∃ text, headerReport texts (utf8Encode (str! "{\"alg\":\"E\\q") ++ b') = some text ∧
    Report (utf8Encode (str! "{\"alg\":\"E\\q") ++ b') (str! "invalid escape") 11 text :=
  C154_text_alg texts _ [] ['{'] (str! "\"alg\"") (str! "\"alg\"") [] [] (str! "E") (str! "E")
    (str! "E") ['\\', 'q'] _ (octets b') 0 (Json.octets_iff.2 (by simp only [octets, List.map_append]; rfl))
    (.brace [] [] Ws.nil Ws.nil) (by simp) ⟨_, plain (str! "alg") (by decide), rfl⟩
    (Json.utf8Text_iff.2 (by decide)) Ws.nil Ws.nil (plain (str! "E") (by decide)) (Json.utf8Text_iff.2 (by decide))
    (.escape 'q' (by decide) (by decide)) (by simp)

/-- `nUll` as the issuer, which may be `null`, and as the nonce, which may not; and a number without digits. -/
example (b' : Bytes) : ∃ text, bodyReport Ex.ext texts (utf8Encode (str! "{\"iss\":nU") ++ b') = some text ∧
    Report (utf8Encode (str! "{\"iss\":nU") ++ b') (str! "expected ident") 9 text :=
  C154_value_claim Ex.ext texts _ [] ['{'] (str! "iss") (str! "\"iss\"") (str! "\"iss\"") [] [] (str! "nU") _ (octets b')
    (Json.octets_iff.2 (by simp only [octets, List.map_append]; rfl)) (.brace [] [] Ws.nil Ws.nil) (by decide) (by simp)
    ⟨_, plain (str! "iss") (by decide), rfl⟩ (Json.utf8Text_iff.2 (by decide)) Ws.nil Ws.nil
    (.literal (str! "null") ['n'] 'u' 'U' (by decide) (by decide) (by decide) (by decide))

example (b' : Bytes) : ∃ text, bodyReport Ex.ext texts (utf8Encode (str! "{\"nonce\":nU") ++ b') = some text ∧
    Report (utf8Encode (str! "{\"nonce\":nU") ++ b') (str! "expected ident") 11 text :=
  C154_value_claim Ex.ext texts _ [] ['{'] (str! "nonce") (str! "\"nonce\"") (str! "\"nonce\"") [] [] (str! "nU") _
    (octets b') (Json.octets_iff.2 (by simp only [octets, List.map_append]; rfl)) (.brace [] [] Ws.nil Ws.nil)
    (by decide) (by simp) ⟨_, plain (str! "nonce") (by decide), rfl⟩ (Json.utf8Text_iff.2 (by decide)) Ws.nil Ws.nil
    (.literal (str! "null") ['n'] 'u' 'U' (by decide) (by decide) (by decide) (by decide))

example (b' : Bytes) : ∃ text, bodyReport Ex.ext texts (utf8Encode (str! "{\"iat\":1e}") ++ b') = some text ∧
    Report (utf8Encode (str! "{\"iat\":1e}") ++ b') (str! "invalid number") 10 text :=
  C154_number_claim Ex.ext texts _ [] ['{'] (str! "iat") (str! "\"iat\"") (str! "\"iat\"") [] [] (str! "1e") (octets b')
    '}' (Json.octets_iff.2 (by simp only [octets, List.map_append]; rfl)) (.brace [] [] Ws.nil Ws.nil) (by decide)
    (by simp) ⟨_, plain (str! "iat") (by decide), rfl⟩ (Json.utf8Text_iff.2 (by decide)) Ws.nil Ws.nil one_e (by decide)
    (fun _ => by decide)

end Ex
end Oid4vci
