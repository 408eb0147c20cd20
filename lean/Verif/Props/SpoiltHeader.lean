import Verif.Props.SpoiltText

/-!
C154, continued: values that are spoilt in members the header does not know. These are read, not passed over.
-/

namespace Oid4vci

open Spec Reading
open Json (octets wide)

namespace Reading

theorem value_ws {w s : Str} (k d : Nat) (hw : Ws w) : value (k + 1) d (w ++ s) = value (k + 1) d s := by
  have e : Json.skipWs (w ++ s) = Json.skipWs s := Json.skipWs_append hw
  rw [value.eq_def]
  dsimp only
  rw [bind_ok (got_ws _), bind_ok (got_ws _), e]

theorem value_misspelt {y m rest : Str} (k dep : Nat) (hy : Misspelt y m) :
    ∃ r, value (k + 1) dep (y ++ rest) = (.err m (some rest.length), r) := by
  cases hy with
  | literal word p d c hword hp hd hc =>
    have hs : ∀ (a : Char) (s : Str), Json.isWs a = false → Json.skipWs (a :: s) = a :: s := fun a s ha =>
      skipWs_char (w := []) Ws.nil ha
    match p, hp, hd with
    | a :: p, _, hd =>
      refine ⟨rest, ?_⟩
      simp only [List.mem_cons, List.not_mem_nil, or_false] at hword
      rw [List.append_assoc, List.cons_append, List.cons_append, List.nil_append]
      rw [List.cons_append] at hd
      rw [value.eq_def]
      dsimp only
      rw [bind_ok (got_ws _)]
      rcases hword with rfl | rfl | rfl
      · obtain ⟨rfl, hd'⟩ := List.cons_prefix_cons.1 hd
        rw [hs _ _ (by decide)]
        exact (bind_ok (got_eat _)).trans (bind_err (ident_bad hc hd'))
      · obtain ⟨rfl, hd'⟩ := List.cons_prefix_cons.1 hd
        rw [hs _ _ (by decide)]
        exact (bind_ok (got_eat _)).trans (bind_err (ident_bad hc hd'))
      · obtain ⟨rfl, hd'⟩ := List.cons_prefix_cons.1 hd
        rw [hs _ _ (by decide)]
        exact (bind_ok (got_eat _)).trans (bind_err (ident_bad hc hd'))
  | other c hws hc =>
    have hne : ∀ d ∈ str! "\"[{-0123456789ntf", c ≠ d := by rintro d hd rfl; exact hc hd
    have hdig : Json.isDigit c = false := not_digit fun h => by
      have : ∀ c ∈ str! "0123456789", c ∈ str! "\"[{-0123456789ntf" := by decide
      exact hc (this c h)
    have e : Json.skipWs ([c] ++ rest) = c :: rest := skipWs_char (w := []) Ws.nil (not_ws hws)
    refine ⟨c :: rest, ?_⟩
    rw [value.eq_def]
    dsimp only
    rw [bind_ok (got_ws _), e]
    simp only [List.head?_cons]
    rw [if_neg (hne _ (by decide)), if_neg (hne _ (by decide)), if_neg (hne _ (by decide)), if_neg (hne _ (by decide)),
      if_neg (by simp [hdig]), if_neg (hne _ (by decide)), if_neg (hne _ (by decide)), if_neg (hne _ (by decide))]
    rfl

theorem value_spoilt {w v u y m rest : Str} {j : Nat} (k d : Nat) (hw : Ws w) (hu : CharsText v u) (h : Spoilt y j m)
    (hj : j ≤ rest.length) :
    value (k + 1) d (w ++ '"' :: (wide u ++ (y ++ rest))) = (.err m (some rest.length), rest) := by
  have hs : string (wide u ++ (y ++ rest)) = (.err m (some rest.length), rest) := by
    unfold string
    refine bind_err ?_
    exact scan_stop hu (scan_spoilt h hj) _ (by simp only [List.length_append]; omega)
  rw [value.eq_def]
  dsimp only
  rw [bind_ok (got_ws _), skipWs_char hw (by decide)]
  simp only [List.head?_cons]
  rw [if_pos trivial, bind_ok (got_eat _), List.tail_cons, bind_err hs]

theorem value_signed {neg : Bool} {n : Nat} {i y : Str} (k d : Nat) (hi : IntText n i) :
    value (k + 1) d ((if neg then ['-'] else []) ++ (i ++ y)) = number neg (i ++ y) := by
  obtain ⟨n1, n2, -⟩ := Json.intText_iff.1 hi
  match i, n1, n2 with
  | c :: i, _, n2 =>
    have hc := n2 c (by simp)
    have hne : ∀ d : Char, Json.isDigit d = false → c ≠ d := by
      rintro d hd rfl; rw [hc] at hd; cases hd
    have hws : Json.isWs c = false := by
      simp [Json.isWs, hne ' ' (by decide), hne '\t' (by decide), hne '\n' (by decide), hne '\r' (by decide)]
    rw [value.eq_def]
    dsimp only
    rw [bind_ok (got_ws _)]
    cases neg with
    | true =>
      have e : Json.skipWs ((if true = true then ['-'] else []) ++ (c :: i ++ y)) = '-' :: (c :: i ++ y) :=
        skipWs_char (w := []) Ws.nil (by decide)
      rw [e]
      rfl
    | false =>
      have e : Json.skipWs ((if false = true then ['-'] else []) ++ (c :: i ++ y)) = c :: (i ++ y) :=
        skipWs_char (w := []) Ws.nil hws
      rw [e]
      simp only [List.head?_cons]
      rw [if_neg (hne _ (by decide)), if_neg (hne _ (by decide)), if_neg (hne _ (by decide)),
        if_neg (hne _ (by decide)), if_pos hc]
      rfl

theorem integer_int {n : Nat} {i y : Str} (hi : IntText n i) (hy : ∀ c ∈ y.head?, Json.isDigit c = false) :
    got integer (i ++ y) = some (i, y) := by
  obtain ⟨n1, n2, n3⟩ := Json.intText_iff.1 hi
  have h := digits_run (s := i) n2 hy
  rw [got_digits] at h
  simp only [Option.some.injEq, Prod.mk.injEq] at h
  rw [got_integer, h.1, h.2, if_neg n1, if_neg]
  rintro ⟨h1, h2⟩
  exact h2 (by simp_all)

theorem number_stop {neg : Bool} {n : Nat} {i y m r : Str} {l : Option Nat} (hi : IntText n i)
    (hy : ∀ c ∈ y.head?, Json.isDigit c = false) (h : fraction i y = (.err m l, r)) :
    number neg (i ++ y) = (.err m l, r) := by
  unfold number
  rw [bind_ok (integer_int hi hy), bind_err h]

theorem fraction_point {ds rest : Str} {c : Char} (hc : Json.isDigit c = false) :
    fraction ds ('.' :: c :: rest) = (.err (str! "invalid number") (some rest.length), c :: rest) := by
  unfold fraction
  rw [bind_ok (got_peek _)]
  simp only [List.head?_cons]
  rw [if_pos trivial, bind_ok (got_eat _), List.tail_cons]
  have := digits_run (s := []) (r := c :: rest) (by simp) (by simpa using hc)
  rw [List.nil_append] at this
  rw [bind_ok this, if_pos rfl]
  rfl

theorem fraction_exponent {ds f r m s : Str} {l : Option Nat} {e : Char} (hf : FracText f) (he : e ∈ ['e', 'E'])
    (h : ∀ fs, exponent ds fs (e :: r) = (.err m l, s)) : fraction ds (f ++ e :: r) = (.err m l, s) := by
  have hd : ∀ c ∈ (e :: r).head?, Json.isDigit c = false := by
    intro c hc
    obtain rfl : e = c := by simpa using hc
    simp only [List.mem_cons, List.not_mem_nil, or_false] at he
    rcases he with rfl | rfl <;> decide
  unfold fraction
  rw [bind_ok (got_peek _)]
  rcases hf with rfl | ⟨ds, t, ht, rfl⟩
  · simp only [List.nil_append, List.head?_cons]
    rw [if_neg (by rintro rfl; revert he; decide), h]
  · obtain ⟨h1, h2, -⟩ := Json.digitsText_iff.1 ht
    simp only [List.cons_append, List.head?_cons]
    rw [if_pos trivial, bind_ok (got_eat _), List.tail_cons, bind_ok (digits_run h2 hd), if_neg h1, bind_err (h _)]

theorem exponent_bad {ds fs sign rest : Str} {e c : Char} (he : e ∈ ['e', 'E']) (hs : sign ∈ [[], ['+'], ['-']])
    (hc : Json.isDigit c = false) (hc' : sign = [] → c ∉ ['+', '-']) :
    exponent ds fs (e :: (sign ++ c :: rest)) = (.err (str! "invalid number") (some rest.length), rest) := by
  have he' : e = 'e' ∨ e = 'E' := by simpa using he
  have hlast : ∀ (F : Char → Reader Str), (do
      match ← next with
      | none => here eofValue
      | some c =>
        if Json.isDigit c then F c
        else here invalidNumber : Reader Str) (c :: rest) = (.err (str! "invalid number") (some rest.length), rest) := by
    intro F
    rw [bind_ok (got_next _)]
    simp only [List.head?_cons, List.tail_cons]
    rw [if_neg (by simp [hc])]
    rfl
  have hsign : got (do
        match ← peek with
        | none => pure []
        | some c => if c = '+' ∨ c = '-' then do eat; pure [c] else pure [] : Reader Str) (sign ++ c :: rest) =
      some (sign, c :: rest) := by
    simp only [List.mem_cons, List.not_mem_nil, or_false] at hs
    rcases hs with rfl | rfl | rfl
    · have := hc' rfl
      simp only [List.mem_cons, List.not_mem_nil, or_false] at this
      simp [this]
    · simp
    · simp
  unfold exponent
  rw [bind_ok (got_peek _)]
  simp only [List.head?_cons]
  rw [if_pos he', bind_ok (got_eat _), List.tail_cons]
  exact (bind_ok hsign).trans (hlast _)

theorem value_unfinished {y rest : Str} {c : Char} (k d : Nat) (hy : Unfinished y) (hc : Json.isDigit c = false)
    (hc' : y.getLast? ∈ [some 'e', some 'E'] → c ∉ ['+', '-']) :
    ∃ r, value (k + 1) d (y ++ c :: rest) = (.err (str! "invalid number") (some rest.length), r) := by
  cases hy with
  | minus =>
    have : number true (c :: rest) = (.err (str! "invalid number") (some rest.length), rest) := by
      unfold number
      refine bind_err ?_
      unfold integer
      rw [bind_ok (got_next _)]
      simp only [List.head?_cons, List.tail_cons]
      rw [if_neg (by rintro rfl; revert hc; decide), if_neg (by simp [hc])]
      rfl
    refine ⟨rest, ?_⟩
    rw [← this, value.eq_def]
    dsimp only
    rw [bind_ok (got_ws _)]
    have e : Json.skipWs (['-'] ++ c :: rest) = '-' :: c :: rest := skipWs_char (w := []) Ws.nil (by decide)
    rw [e]
    rfl
  | point neg n s hs =>
    simp only [List.append_assoc]
    rw [value_signed k d hs]
    simp only [List.cons_append, List.nil_append]
    exact ⟨_, number_stop hs (by simp; decide) (fraction_point hc)⟩
  | exponent neg n s f sign e hs hf he hsign =>
    have hlast : sign = [] → c ∉ ['+', '-'] := by
      rintro rfl
      refine hc' ?_
      rw [List.getLast?_append, List.getLast?_append, List.getLast?_append]
      simp only [List.mem_cons, List.not_mem_nil, or_false] at he
      rcases he with rfl | rfl <;> simp
    refine ⟨rest, ?_⟩
    simp only [List.append_assoc, List.cons_append]
    rw [value_signed k d hs]
    exact number_stop hs (frac_head hf he) (fraction_exponent hf he fun fs => exponent_bad he hsign hc hlast)

theorem header_unknown {T : Texts} {b : Bytes} {kvs : List (Str × Json)} {t k n s w a m r0 : Str} {l : Nat}
    (hb : Octets b (t ++ (s ++ (w ++ ':' :: a)))) (ht : HeaderStart kvs t) (hk : k ∉ [str! "typ", str! "alg"]) (hn : StringText k n)
    (hs : Utf8Text n s) (hw : Ws w)
    (h1 : (fueled fun n => value n (Json.maxDepth - 1)) a = (.err m (some l), r0)) :
    ∃ text, headerReport T b = some text ∧ Report b m (b.length - l) text := by
  obtain ⟨q, hq, rfl⟩ := hn
  obtain rfl := Json.utf8Text_iff.1 hs
  rw [Json.wide_quoted] at *
  have hf : headerField T k = none := by
    rw [← Option.not_isSome_iff_eq_none, typAlg_iff]; exact hk
  have e : t ++ ('"' :: (wide q ++ ['"']) ++ (w ++ ':' :: a)) = t ++ '"' :: (wide q ++ '"' :: (w ++ ':' :: a)) := by simp
  obtain ⟨r, h⟩ := header_start_run (T := T) ht (fun m b w1 w2 hw1 hw2 => lead_other m hf hw1 hw2 hq hw h1)
  rw [Option.getD_some, ← e] at h
  exact header_report hb h

end Reading

/-- C154. Something that is no value in a member the header does not know: the place is behind the first wrong octet. -/
theorem C154_value_header (T : Texts) (b : Bytes) (kvs : List (Str × Json)) (t k n s w w' y m rest : Str)
    (hb : Octets b (t ++ (s ++ (w ++ ':' :: (w' ++ (y ++ rest)))))) (ht : HeaderStart kvs t)
    (hk : k ∉ [str! "typ", str! "alg"]) (hn : StringText k n) (hs : Utf8Text n s) (hw : Ws w) (hw' : Ws w')
    (hy : Misspelt y m) :
    ∃ text, headerReport T b = some text ∧
      Report b m (t.length + s.length + w.length + 1 + w'.length + y.length) text := by
  obtain ⟨r0, h0⟩ := value_misspelt (rest := rest) (2 * (w' ++ (y ++ rest)).length + 1) (Json.maxDepth - 1) hy
  obtain ⟨text, g1, g2⟩ := header_unknown (T := T) hb ht hk hn hs hw ((value_ws _ _ hw').trans h0)
  refine ⟨text, g1, ?_⟩
  have hlen := octets_length hb
  simp only [List.length_append, List.length_cons] at hlen
  rw [show b.length - rest.length = t.length + s.length + w.length + 1 + w'.length + y.length by omega] at g2
  exact g2

/-- C154. A number without its digits in a member the header does not know, unless the header ends there (C149). -/
theorem C154_number_header (T : Texts) (b : Bytes) (kvs : List (Str × Json)) (t k n s w w' y rest : Str) (c : Char)
    (hb : Octets b (t ++ (s ++ (w ++ ':' :: (w' ++ (y ++ c :: rest)))))) (ht : HeaderStart kvs t)
    (hk : k ∉ [str! "typ", str! "alg"]) (hn : StringText k n) (hs : Utf8Text n s) (hw : Ws w) (hw' : Ws w')
    (hy : Unfinished y) (hc : c ∉ str! "0123456789") (hc' : y.getLast? ∈ [some 'e', some 'E'] → c ∉ ['+', '-']) :
    ∃ text, headerReport T b = some text ∧
      Report b (str! "invalid number") (t.length + s.length + w.length + 1 + w'.length + y.length + 1) text := by
  obtain ⟨r0, h0⟩ := value_unfinished (rest := rest) (2 * (w' ++ (y ++ c :: rest)).length + 1) (Json.maxDepth - 1) hy
    (not_digit hc) hc'
  obtain ⟨text, g1, g2⟩ := header_unknown (T := T) hb ht hk hn hs hw ((value_ws _ _ hw').trans h0)
  refine ⟨text, g1, ?_⟩
  have hlen := octets_length hb
  simp only [List.length_append, List.length_cons] at hlen
  rw [show b.length - rest.length = t.length + s.length + w.length + 1 + w'.length + y.length + 1 by omega] at g2
  exact g2

/-- C154. A spoilt string in a member the header does not know. Here the place is behind a control character as well. -/
theorem C154_skipped_header (T : Texts) (b : Bytes) (kvs : List (Str × Json)) (t k n s w w' v u z y m rest : Str)
    (j : Nat) (hb : Octets b (t ++ (s ++ (w ++ ':' :: (w' ++ '"' :: (z ++ (y ++ rest))))))) (ht : HeaderStart kvs t)
    (hk : k ∉ [str! "typ", str! "alg"]) (hn : StringText k n) (hs : Utf8Text n s) (hw : Ws w) (hw' : Ws w')
    (hu : CharsText v u) (hz : Utf8Text u z) (hy : Spoilt y j m) (hj : j ≤ rest.length) :
    ∃ text, headerReport T b = some text ∧
      Report b m (t.length + s.length + w.length + 1 + w'.length + 1 + z.length + y.length) text := by
  obtain rfl := Json.utf8Text_iff.1 hz
  have h1 := value_spoilt (2 * (w' ++ '"' :: (wide u ++ (y ++ rest))).length + 1) (Json.maxDepth - 1) hw' hu hy hj
  obtain ⟨text, g1, g2⟩ := header_unknown (T := T) hb ht hk hn hs hw h1
  refine ⟨text, g1, ?_⟩
  have hlen := octets_length hb
  simp only [List.length_append, List.length_cons] at hlen
  rw [show b.length - rest.length = t.length + s.length + w.length + 1 + w'.length + 1 + (wide u).length + y.length by
    omega] at g2
  exact g2

namespace Ex

/-- A literal with a wrong letter, a number without digits behind its exponent, and a line break in a string. -/
example (b' : Bytes) : ∃ text, headerReport texts (utf8Encode (str! "{\"a\":nU") ++ b') = some text ∧
    Report (utf8Encode (str! "{\"a\":nU") ++ b') (str! "expected ident") 7 text :=
  C154_value_header texts _ [] ['{'] (str! "a") (str! "\"a\"") (str! "\"a\"") [] [] (str! "nU") _ (octets b')
    (Json.octets_iff.2 (by simp only [octets, List.map_append]; rfl)) (.brace [] [] Ws.nil Ws.nil) (by decide)
    ⟨_, plain (str! "a") (by decide), rfl⟩ (Json.utf8Text_iff.2 (by decide)) Ws.nil Ws.nil
    (.literal (str! "null") ['n'] 'u' 'U' (by decide) (by decide) (by decide) (by decide))

example (b' : Bytes) : ∃ text, headerReport texts (utf8Encode (str! "{\"a\":1e}") ++ b') = some text ∧
    Report (utf8Encode (str! "{\"a\":1e}") ++ b') (str! "invalid number") 8 text :=
  C154_number_header texts _ [] ['{'] (str! "a") (str! "\"a\"") (str! "\"a\"") [] [] (str! "1e") (octets b') '}'
    (Json.octets_iff.2 (by simp only [octets, List.map_append]; rfl)) (.brace [] [] Ws.nil Ws.nil) (by decide)
    ⟨_, plain (str! "a") (by decide), rfl⟩ (Json.utf8Text_iff.2 (by decide)) Ws.nil Ws.nil one_e (by decide)
    (fun _ => by decide)

example (b' : Bytes) : ∃ text, headerReport texts (utf8Encode (str! "{\"a\":\"n\n") ++ b') = some text ∧
    Report (utf8Encode (str! "{\"a\":\"n\n") ++ b')
      (str! "control character (\\u0000-\\u001F) found while parsing a string") 8 text :=
  C154_skipped_header texts _ [] ['{'] (str! "a") (str! "\"a\"") (str! "\"a\"") [] [] (str! "n") (str! "n") (str! "n")
    ['\n'] _ (octets b') 0 (Json.octets_iff.2 (by simp only [octets, List.map_append]; rfl))
    (.brace [] [] Ws.nil Ws.nil) (by decide) ⟨_, plain (str! "a") (by decide), rfl⟩ (Json.utf8Text_iff.2 (by decide))
    Ws.nil Ws.nil (plain (str! "n") (by decide)) (Json.utf8Text_iff.2 (by decide)) (.control '\n' (by decide)) (by simp)

end Ex
end Oid4vci
