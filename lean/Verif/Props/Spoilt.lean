import Verif.Props.HeaderReport

/-!
The first octet that cannot belong to a JSON text (C154): a name without its colon, and a name whose string is spoilt.
-/

namespace Oid4vci

open Spec Reading
open Json (octets hexVal wide)

namespace Spec

/-- The octets at which a string is spoilt, the last of which is the wrong one, how many octets have to follow, and
what is said: a control character, a backslash with something behind it that is no escape, or four hexadecimal digits
one of which is none. (If the input ends within the four digits it is the end that is reported, C150.) -/
inductive Spoilt : Str → Nat → Str → Prop
  | control (c : Char) : c.toNat < 0x20 →
      Spoilt [c] 0 (str! "control character (\\u0000-\\u001F) found while parsing a string")
  | escape (e : Char) : e ≠ 'u' → e ∉ escapes.map Prod.fst → Spoilt ['\\', e] 0 (str! "invalid escape")
  | digit (h : Str) (c : Char) (n : Nat) : (∀ d ∈ h, d ∈ hexDigits.map Prod.fst) → c ∉ hexDigits.map Prod.fst →
      h.length + 1 + n = 4 → Spoilt ('\\' :: 'u' :: (h ++ [c])) n (str! "invalid escape")

/-- The beginning of a number that has to go on with a digit. -/
inductive Unfinished : Str → Prop
  | minus : Unfinished ['-']
  | point (neg : Bool) (n : Nat) (s : Str) : IntText n s → Unfinished ((if neg then ['-'] else []) ++ (s ++ ['.']))
  | exponent (neg : Bool) (n : Nat) (s f sign : Str) (e : Char) : IntText n s → FracText f → e ∈ ['e', 'E'] →
      sign ∈ [[], ['+'], ['-']] → Unfinished ((if neg then ['-'] else []) ++ (s ++ (f ++ e :: sign)))

/-- Octets that are no value, the last of which is the first wrong one: a literal with a wrong letter, which is not the
first, and something no value begins with. -/
inductive Misspelt : Str → Str → Prop
  | literal (word p : Str) (d c : Char) : word ∈ [str! "null", str! "true", str! "false"] → p ≠ [] →
      p ++ [d] <+: word → c ≠ d → Misspelt (p ++ [c]) (str! "expected ident")
  | other (c : Char) : c ∉ [' ', '\t', '\n', '\r'] → c ∉ str! "\"[{-0123456789ntf" →
      Misspelt [c] (str! "expected value")

end Spec

namespace Reading

theorem scan_plain {c : Char} {s r m : Str} {l : Option Nat} {n : Nat} (h1 : c ≠ '"') (h2 : c ≠ '\\')
    (h3 : ¬ c.toNat < 32) (h : scan n s = (.err m l, r)) : scan (n + 1) (c :: s) = (.err m l, r) := by
  rw [scan, bind_ok (got_next _)]
  simp only [List.head?_cons, List.tail_cons]
  rw [if_neg h1, if_neg h2, if_neg h3, bind_err h]

theorem scan_escape {e t s r m : Str} {l : Option Nat} {n : Nat} (he : got escape t = some (e, s))
    (h : scan n s = (.err m l, r)) : scan (n + 1) ('\\' :: t) = (.err m l, r) := by
  rw [scan, bind_ok (got_next _)]
  simp only [List.head?_cons, List.tail_cons]
  rw [if_neg (by decide), if_pos trivial, bind_ok he, bind_err h]

theorem scan_bytes {s r m : Str} {l : Option Nat} : ∀ (t : Str) (n : Nat), (∀ c ∈ t, 128 ≤ c.toNat) →
    scan n s = (.err m l, r) → scan (n + t.length) (t ++ s) = (.err m l, r)
  | [], _, _, h => h
  | c :: t, n, ht, h => by
    have hc := ht c (by simp)
    refine scan_plain (n := n + t.length) ?_ ?_ (by omega) (scan_bytes t n (fun c hc => ht c (by simp [hc])) h)
    · rintro rfl; revert hc; decide
    · rintro rfl; revert hc; decide

/-- What is wrong behind the characters of a string. -/
theorem scan_stop {v u s r m : Str} {l : Option Nat} (hu : CharsText v u) :
    (∀ n, scan (n + 1) s = (.err m l, r)) → ∀ n, (wide u).length < n → scan n (wide u ++ s) = (.err m l, r) := by
  intro hs
  induction hu with
  | nil =>
    intro n hn
    obtain ⟨k, rfl⟩ : ∃ k, n = k + 1 := ⟨n - 1, by omega⟩
    exact hs k
  | unescaped c v t h1 h2 h3 _ ih =>
    intro n hn
    by_cases hc : c.toNat < 128
    · rw [Json.wide_ascii hc] at hn ⊢
      simp only [List.length_cons] at hn
      obtain ⟨k, rfl⟩ : ∃ k, n = k + 1 := ⟨n - 1, by omega⟩
      exact scan_plain h2 h3 (by omega) (ih k (by omega))
    · rw [Json.wide_cons] at hn ⊢
      rw [List.length_append] at hn
      rw [List.append_assoc]
      obtain ⟨k, rfl⟩ : ∃ k, n = k + (wide [c]).length := ⟨n - (wide [c]).length, by omega⟩
      exact scan_bytes _ k (Json.wide_nonascii (by omega)) (ih k (by omega))
  | escape e c v t he _ ih =>
    intro n hn
    rw [Json.wide_ascii (by decide), Json.wide_ascii (Json.escape_ascii he)] at hn ⊢
    simp only [List.length_cons] at hn
    obtain ⟨k, rfl⟩ : ∃ k, n = k + 1 := ⟨n - 1, by omega⟩
    exact scan_escape (escape_simple he _) (ih k (by omega))
  | unicode c h v t hh _ ih =>
    intro n hn
    rw [Json.wide_ascii (by decide), Json.wide_ascii (by decide), Json.wide_append,
      Json.wide_eq_self (Json.hex4_ascii hh)] at hn ⊢
    simp only [List.length_cons, List.length_append] at hn
    obtain ⟨k, rfl⟩ : ∃ k, n = k + 1 := ⟨n - 1, by omega⟩
    simp only [List.cons_append, List.append_assoc]
    exact scan_escape (escape_unicode hh _) (ih k (by omega))
  | pair c hi lo h l v t hh hl h1 h2 h3 h4 hc _ ih =>
    intro n hn
    rw [Json.wide_ascii (by decide), Json.wide_ascii (by decide), Json.wide_append, Json.wide_eq_self (Json.hex4_ascii hh),
      Json.wide_ascii (by decide), Json.wide_ascii (by decide), Json.wide_append,
      Json.wide_eq_self (Json.hex4_ascii hl)] at hn ⊢
    simp only [List.length_cons, List.length_append] at hn
    obtain ⟨k, rfl⟩ : ∃ k, n = k + 1 := ⟨n - 1, by omega⟩
    simp only [List.cons_append, List.append_assoc]
    exact scan_escape (escape_pair hh hl h1 h2 h3 h4 _) (ih k (by omega))

theorem hexDigit_bad {c : Char} (s : Str) (h : hexVal c = none) :
    hexDigit (c :: s) = (.err invalidEscape (some s.length), s) := by
  unfold hexDigit
  rw [bind_ok (got_next _)]
  simp only [List.head?_cons, List.tail_cons, h]
  rfl

theorem hexDigit_good {c : Char} (s : Str) (h : (hexVal c).isSome) : ∃ v, got hexDigit (c :: s) = some (v, s) := by
  obtain ⟨v, hv⟩ := Option.isSome_iff_exists.1 h
  exact ⟨(c, v), by rw [got_hexDigit, hv]; rfl⟩

theorem hexDigits_bad {h : Str} {c : Char} (s : Str) (hh : ∀ d ∈ h, (hexVal d).isSome) (hc : hexVal c = none)
    (hl : h.length < 4) : Reading.hexDigits (h ++ c :: s) = (.err invalidEscape (some s.length), s) := by
  have hb := hexDigit_bad s hc
  unfold Reading.hexDigits
  match h, hh, hl with
  | [], _, _ => exact bind_err hb
  | [a], hh, _ =>
    obtain ⟨a', ha⟩ := hexDigit_good (c :: s) (hh a (by simp))
    simp only [List.cons_append, List.nil_append]
    rw [bind_ok ha, bind_err hb]
  | [a, b], hh, _ =>
    obtain ⟨a', ha⟩ := hexDigit_good (b :: c :: s) (hh a (by simp))
    obtain ⟨b', hb'⟩ := hexDigit_good (c :: s) (hh b (by simp))
    simp only [List.cons_append, List.nil_append]
    rw [bind_ok ha, bind_ok hb', bind_err hb]
  | [a, b, d], hh, _ =>
    obtain ⟨a', ha⟩ := hexDigit_good (b :: d :: c :: s) (hh a (by simp))
    obtain ⟨b', hb'⟩ := hexDigit_good (d :: c :: s) (hh b (by simp))
    obtain ⟨d', hd⟩ := hexDigit_good (c :: s) (hh d (by simp))
    simp only [List.cons_append, List.nil_append]
    rw [bind_ok ha, bind_ok hb', bind_ok hd, bind_err hb]
  | _ :: _ :: _ :: _ :: _, _, hl => simp only [List.length_cons] at hl; omega

theorem hexVal_isSome {c : Char} : (hexVal c).isSome ↔ c ∈ Spec.hexDigits.map Prod.fst := by
  rw [Option.isSome_iff_exists, List.mem_map]
  constructor
  · rintro ⟨d, h⟩; exact ⟨(c, d), Json.mem_hexDigits.2 h, rfl⟩
  · rintro ⟨⟨_, d⟩, h, rfl⟩; exact ⟨d, Json.mem_hexDigits.1 h⟩

theorem simpleEscape_none {c : Char} (h : c ∉ escapes.map Prod.fst) : (Json.simpleEscape c).isSome = false := by
  simp only [escapes, List.map_cons, List.map_nil, List.mem_cons, List.not_mem_nil, or_false, not_or] at h
  simp [Json.simpleEscape, h]

theorem scan_spoilt {y m rest : Str} {k : Nat} (h : Spoilt y k m) (hk : k ≤ rest.length) (n : Nat) :
    scan (n + 1) (y ++ rest) = (.err m (some rest.length), rest) := by
  cases h with
  | control c hc =>
    rw [scan, List.cons_append, List.nil_append, bind_ok (got_next _)]
    simp only [List.head?_cons, List.tail_cons]
    rw [if_neg (by rintro rfl; revert hc; decide), if_neg (by rintro rfl; revert hc; decide), if_pos hc]
    rfl
  | escape e hu he =>
    have : escape (e :: rest) = (.err invalidEscape (some rest.length), rest) := by
      unfold escape
      rw [bind_ok (got_next _)]
      simp only [List.head?_cons, List.tail_cons]
      rw [simpleEscape_none he]
      rfl
    rw [scan]
    simp only [List.cons_append, List.nil_append]
    rw [bind_ok (got_next _)]
    simp only [List.head?_cons, List.tail_cons]
    rw [if_neg (by decide), if_pos trivial, bind_err this]
    rfl
  | digit h c _ hh hc hl =>
    have h0 : hexVal c = none := by
      rw [← Option.not_isSome_iff_eq_none, hexVal_isSome]; exact hc
    have : escape ('u' :: (h ++ c :: rest)) = (.err invalidEscape (some rest.length), rest) := by
      unfold escape
      rw [bind_ok (got_next _)]
      simp only [List.head?_cons, List.tail_cons]
      refine bind_err ?_
      unfold hexEscape
      rw [if_neg (by simp only [List.length_append, List.length_cons]; omega)]
      exact hexDigits_bad rest (fun d hd => hexVal_isSome.2 (hh d hd)) h0 (by omega)
    rw [scan]
    simp only [List.cons_append, List.nil_append, List.append_assoc]
    rw [bind_ok (got_next _)]
    simp only [List.head?_cons, List.tail_cons]
    rw [if_neg (by decide), if_pos trivial, bind_err this]
    rfl

theorem nextKey_spoilt (b : Bool) {w w' v u y m rest : Str} {k : Nat} (hw : Ws w) (hw' : Ws w') (hu : CharsText v u)
    (h : Spoilt y k m) (hk : k ≤ rest.length) :
    nextKey b (w ++ (sep b ++ (w' ++ '"' :: (wide u ++ (y ++ rest))))) = (.err m (some rest.length), rest) := by
  have hs : string (wide u ++ (y ++ rest)) = (.err m (some rest.length), rest) := by
    unfold string
    refine bind_err ?_
    exact scan_stop hu (scan_spoilt h hk) _ (by simp only [List.length_append]; omega)
  have hq : ∀ {w' : Str}, Ws w' → Json.skipWs (w' ++ '"' :: (wide u ++ (y ++ rest))) = '"' :: (wide u ++ (y ++ rest)) :=
    fun hw' => skipWs_char hw' (by decide)
  have hq' := hq Ws.nil
  rw [List.nil_append] at hq'
  unfold nextKey
  cases b with
  | true =>
    have e : Json.skipWs (w ++ (sep true ++ (w' ++ '"' :: (wide u ++ (y ++ rest))))) = '"' :: (wide u ++ (y ++ rest)) := by
      rw [Json.skipWs_append hw]; exact hq hw'
    rw [bind_ok (got_ws _), e]
    simp only [List.head?_cons]
    rw [if_neg (by decide), if_pos (.inl trivial), if_pos trivial, bind_ok (got_ws _), hq']
    simp only [List.head?_cons]
    rw [if_pos trivial, bind_ok (got_eat _), List.tail_cons, bind_err hs]
  | false =>
    have e : Json.skipWs (w ++ (sep false ++ (w' ++ '"' :: (wide u ++ (y ++ rest))))) =
        ',' :: (w' ++ '"' :: (wide u ++ (y ++ rest))) := skipWs_char hw (by decide)
    rw [bind_ok (got_ws _), e]
    simp only [List.head?_cons]
    rw [if_neg (by decide), if_pos (.inr trivial), if_neg (by decide), bind_ok (got_eat _), List.tail_cons,
      bind_ok (got_ws _), hq hw']
    simp only [List.head?_cons]
    rw [if_pos trivial, bind_ok (got_eat _), List.tail_cons, bind_err hs]

theorem lead_spoilt {fld : Str → Option (Reader Json)} {other : Reader Json} {v u w w' y m rest : Str} {k : Nat}
    {seen : List Str} {b : Bool} (n : Nat) (hw : Ws w) (hw' : Ws w') (hu : CharsText v u) (h : Spoilt y k m)
    (hk : k ≤ rest.length) :
    members fld other (n + 1) b seen (w ++ (sep b ++ (w' ++ '"' :: (wide u ++ (y ++ rest))))) =
      (.err m (some rest.length), rest) := by
  unfold members
  exact bind_err (nextKey_spoilt b hw hw' hu h hk)

theorem lead_colon {fld : Str → Option (Reader Json)} {other : Reader Json} {k u w w' w1 rest : Str} {c : Char}
    {seen : List Str} {b : Bool} (n : Nat) (hw : Ws w) (hw' : Ws w') (hu : CharsText k u)
    (hs : (fld k).isSome → k ∉ seen) (hw1 : Ws w1) (hc : Json.isWs c = false) (hc' : c ≠ ':') :
    members fld other (n + 1) b seen (w ++ (sep b ++ (w' ++ '"' :: (wide u ++ '"' :: (w1 ++ c :: rest))))) =
      (.err (str! "expected `:`") (some rest.length), c :: rest) := by
  have h : colon (w1 ++ c :: rest) = (.err (str! "expected `:`") (some rest.length), c :: rest) := by
    unfold colon
    rw [bind_ok (got_ws _), skipWs_char hw1 hc]
    simp only [List.head?_cons]
    rw [if_neg hc']
    rfl
  unfold members
  rw [bind_ok (nextKey_some b hw hw' hu _)]
  cases hf : fld k with
  | none =>
    simp only [hf]
    exact bind_err h
  | some f =>
    simp only [hf]
    rw [if_neg (hs (by simp [hf])), bind_err h]

theorem lead_first {P : Str → Json → Str → Prop} {kvs : List (Str × Json)} {t : Str} {b b' : Bool}
    (h : Lead P b kvs t b') (hk : kvs = []) : t = [] := by
  cases h with
  | nil => rfl
  | _ => cases hk

/-- Something else than a quotation mark where a name is due. -/
theorem lead_key {fld : Str → Option (Reader Json)} {other : Reader Json} {w w' rest : Str} {c : Char}
    {seen : List Str} {b : Bool} (n : Nat) (hw : Ws w) (hw' : Ws w') (hc : Json.isWs c = false) (hq : c ≠ '"')
    (hb : c = '}' → b = false) :
    members fld other (n + 1) b seen (w ++ (sep b ++ (w' ++ c :: rest))) =
      (.err (if c = '}' then str! "trailing comma" else str! "key must be a string") (some rest.length), c :: rest) := by
  have hs : ∀ {w' : Str}, Ws w' → Json.skipWs (w' ++ c :: rest) = c :: rest := fun hw' => skipWs_char hw' hc
  have hs' := hs Ws.nil
  rw [List.nil_append] at hs'
  unfold members
  refine bind_err ?_
  unfold nextKey
  cases b with
  | true =>
    have hb' : c ≠ '}' := fun h => by cases hb h
    have e : Json.skipWs (w ++ (sep true ++ (w' ++ c :: rest))) = c :: rest := by
      rw [Json.skipWs_append hw]; exact hs hw'
    rw [bind_ok (got_ws _), e]
    simp only [List.head?_cons]
    rw [if_neg hb', if_pos (.inl trivial), if_pos trivial, bind_ok (got_ws _), hs']
    simp only [List.head?_cons]
    rw [if_neg hq, if_neg hb', if_neg hb']
    rfl
  | false =>
    have e : Json.skipWs (w ++ (sep false ++ (w' ++ c :: rest))) = ',' :: (w' ++ c :: rest) := skipWs_char hw (by decide)
    rw [bind_ok (got_ws _), e]
    simp only [List.head?_cons]
    rw [if_neg (by decide), if_pos (.inr trivial), if_neg (by decide), bind_ok (got_eat _), List.tail_cons,
      bind_ok (got_ws _), hs hw']
    simp only [List.head?_cons]
    rw [if_neg hq]
    split <;> rfl

theorem start_key {x : Ext} {T : Texts} {kvs : List (Str × Json)} {t rest : Str} {c : Char}
    (h : BodyStart x kvs t) (hc : Json.isWs c = false) (hq : c ≠ '"') (hb : c = '}' → kvs ≠ []) :
    ∃ r', document (readBody x T) (t ++ c :: rest) =
      (.err (if c = '}' then str! "trailing comma" else str! "key must be a string") (some rest.length), r') := by
  obtain ⟨w, lead, w1, w2, b, rfl, hw, hw1, hw2, hl, hf, hbk⟩ := bodyStart_lead T h
  have hb' : c = '}' → b = false := fun hcb => by
    cases b with
    | true => exact absurd (hbk rfl) (hb hcb)
    | false => rfl
  have htail := fun n => lead_key (fld := bodyField x T) (other := ignored) (rest := rest)
    (seen := seenAfter (bodyField x T) kvs []) n hw1 hw2 hc hq hb'
  have : members (bodyField x T) ignored (2 * (lead ++ (w1 ++ (sep b ++ (w2 ++ c :: rest)))).length + 2) true []
      (lead ++ (w1 ++ (sep b ++ (w2 ++ c :: rest)))) = (.err (if c = '}' then str! "trailing comma" else
        str! "key must be a string") (some rest.length), c :: rest) := by
    cases b with
    | true =>
      obtain rfl := hbk rfl
      obtain rfl := lead_first hl rfl
      exact htail _
    | false =>
      exact lead_members (fld := bodyField x T) (other := ignored) (fun k f => body_field) (fun k => body_other)
        (Json.ws_ends (c := ',') hw1 (by decide)) hl _ [] hf (by simp only [List.length_append]; omega) htail
  have e : w ++ '{' :: (lead ++ (w1 ++ (sep b ++ w2))) ++ c :: rest =
      w ++ '{' :: (lead ++ (w1 ++ (sep b ++ (w2 ++ c :: rest)))) := by simp
  rw [e]
  refine body_run (l := some rest.length) (r := c :: rest) hw ?_
  unfold visitMap
  exact bind_err this

theorem header_start_key {T : Texts} {kvs : List (Str × Json)} {t rest : Str} {c : Char}
    (h : HeaderStart kvs t) (hc : Json.isWs c = false) (hq : c ≠ '"') (hb : c = '}' → kvs ≠ []) :
    ∃ r', document (readHeader T) (t ++ c :: rest) =
      (.err (if c = '}' then str! "trailing comma" else str! "key must be a string") (some rest.length), r') := by
  obtain ⟨w, lead, w1, w2, b, rfl, hw, hw1, hw2, hl, hf, hbk⟩ := headerStart_lead T h
  have hb' : c = '}' → b = false := fun hcb => by
    cases b with
    | true => exact absurd (hbk rfl) (hb hcb)
    | false => rfl
  have htail := fun n => lead_key (fld := headerField T) (other := kept) (rest := rest)
    (seen := seenAfter (headerField T) kvs []) n hw1 hw2 hc hq hb'
  have : members (headerField T) kept (2 * (lead ++ (w1 ++ (sep b ++ (w2 ++ c :: rest)))).length + 2) true []
      (lead ++ (w1 ++ (sep b ++ (w2 ++ c :: rest)))) = (.err (if c = '}' then str! "trailing comma" else
        str! "key must be a string") (some rest.length), c :: rest) := by
    cases b with
    | true =>
      obtain rfl := hbk rfl
      obtain rfl := lead_first hl rfl
      exact htail _
    | false =>
      exact lead_members (fld := headerField T) (other := kept) (fun k f => header_field) (fun k => header_other)
        (Json.ws_ends (c := ',') hw1 (by decide)) hl _ [] hf (by simp only [List.length_append]; omega) htail
  have e : w ++ '{' :: (lead ++ (w1 ++ (sep b ++ w2))) ++ c :: rest =
      w ++ '{' :: (lead ++ (w1 ++ (sep b ++ (w2 ++ c :: rest)))) := by simp
  rw [e]
  refine header_run (l := some rest.length) (r := c :: rest) hw ?_
  unfold visitMap
  exact bind_err this

theorem ends_of {w rest : Str} {c : Char} (hw : Ws w) (hc : w = [] → c ∉ str! "0123456789.eE") :
    Json.Ends (w ++ c :: rest) := by
  cases w with
  | nil =>
    intro x hx
    obtain rfl : c = x := by simpa using hx
    have h := hc rfl
    refine ⟨?_, ?_, ?_, ?_⟩
    · cases hd : Json.isDigit c with
      | false => rfl
      | true =>
        refine absurd ?_ h
        have := Json.mem_digits.2 ⟨hd, rfl⟩
        have hm : c ∈ Spec.digits.map Prod.fst := List.mem_map.2 ⟨_, this, rfl⟩
        have : ∀ c ∈ Spec.digits.map Prod.fst, c ∈ str! "0123456789.eE" := by decide
        exact this c hm
    all_goals rintro rfl; exact h (by decide)
  | cons a w =>
    intro x hx
    obtain rfl : a = x := by simpa using hx
    have := hw a (by simp)
    simp only [List.mem_cons, List.not_mem_nil, or_false] at this
    rcases this with rfl | rfl | rfl | rfl <;> decide

/-- Something else than a comma or closing brace behind a member. -/
theorem lead_comma {fld : Str → Option (Reader Json)} {other : Reader Json} {w rest : Str} {c : Char}
    {seen : List Str} (n : Nat) (hw : Ws w) (hc : Json.isWs c = false) (h1 : c ≠ ',') (h2 : c ≠ '}') :
    members fld other (n + 1) false seen (w ++ c :: rest) =
      (.err (str! "expected `,` or `}`") (some rest.length), c :: rest) := by
  unfold members
  refine bind_err ?_
  unfold nextKey
  rw [bind_ok (got_ws _), skipWs_char hw hc]
  simp only [List.head?_cons]
  rw [if_neg h2, if_neg (by simp [h1])]
  rfl

theorem body_comma_run {x : Ext} {T : Texts} {kvs : List (Str × Json)} {w0 lead w rest : Str} {c : Char} (hw0 : Ws w0)
    (hl : Lead (fun k v t => BodyMember k v t ∧ Claim x k v) true kvs lead false) (hf : Fresh (bodyField x T) [] kvs) (hw : Ws w)
    (hc : Json.isWs c = false) (h1 : c ≠ ',') (h2 : c ≠ '}') (hnum : w = [] → c ∉ str! "0123456789.eE") :
    ∃ r', document (readBody x T) (w0 ++ '{' :: (lead ++ (w ++ c :: rest))) =
      (.err (str! "expected `,` or `}`") (some rest.length), r') := by
  have := lead_members (fld := bodyField x T) (other := ignored) (fun k f => body_field) (fun k => body_other)
    (ends_of (rest := rest) hw hnum) hl (2 * (lead ++ (w ++ c :: rest)).length + 2) [] hf
    (by simp only [List.length_append]; omega) (fun n => lead_comma n hw hc h1 h2)
  refine body_run (l := some rest.length) (r := c :: rest) hw0 ?_
  unfold visitMap
  exact bind_err this

theorem header_comma_run {T : Texts} {kvs : List (Str × Json)} {w0 lead w rest : Str} {c : Char} (hw0 : Ws w0)
    (hl : Lead (fun k v t => Val 126 v t ∧ HeaderMember k v) true kvs lead false) (hf : Fresh (headerField T) [] kvs) (hw : Ws w)
    (hc : Json.isWs c = false) (h1 : c ≠ ',') (h2 : c ≠ '}') (hnum : w = [] → c ∉ str! "0123456789.eE") :
    ∃ r', document (readHeader T) (w0 ++ '{' :: (lead ++ (w ++ c :: rest))) =
      (.err (str! "expected `,` or `}`") (some rest.length), r') := by
  have := lead_members (fld := headerField T) (other := kept) (fun k f => header_field) (fun k => header_other)
    (ends_of (rest := rest) hw hnum) hl (2 * (lead ++ (w ++ c :: rest)).length + 2) [] hf
    (by simp only [List.length_append]; omega) (fun n => lead_comma n hw hc h1 h2)
  refine header_run (l := some rest.length) (r := c :: rest) hw0 ?_
  unfold visitMap
  exact bind_err this

/-- Where it is said that a digit is missing: behind the octet in its place, or at the end. -/
theorem skipExponent_bad {e : Char} {sign rest : Str} (he : e ∈ ['e', 'E']) (hs : sign ∈ [[], ['+'], ['-']])
    (hr : ∀ c ∈ rest.head?, Json.isDigit c = false) (hr' : sign = [] → ∀ c ∈ rest.head?, c ∉ ['+', '-']) :
    ∃ r, skipExponent (e :: (sign ++ rest)) = (.err (str! "invalid number") (some (rest.length - 1)), r) := by
  have he' : e = 'e' ∨ e = 'E' := by simpa using he
  have hlast : ∀ (F : Reader Unit), (do
      match ← next with
      | none => here invalidNumber
      | some c =>
        if Json.isDigit c then F
        else here invalidNumber : Reader Unit) rest = (.err (str! "invalid number") (some (rest.length - 1)), rest.tail) := by
    intro F
    rw [bind_ok (got_next _)]
    cases rest with
    | nil => rfl
    | cons c rest =>
      have := hr c (by simp)
      simp only [List.head?_cons, List.tail_cons]
      rw [if_neg (by simp [this])]
      rfl
  refine ⟨rest.tail, ?_⟩
  unfold skipExponent
  rw [bind_ok (got_peek _)]
  simp only [List.head?_cons]
  rw [if_pos he', bind_ok (got_eat _), List.tail_cons]
  simp only [List.mem_cons, List.not_mem_nil, or_false] at hs
  rcases hs with rfl | rfl | rfl
  · have : got (do
        match ← peek with
        | none => pure ()
        | some c => if c = '+' ∨ c = '-' then eat else pure () : Reader Unit) rest = some ((), rest) := by
      cases rest with
      | nil => rfl
      | cons c rest =>
        have := hr' rfl c (by simp)
        simp only [List.mem_cons, List.not_mem_nil, or_false] at this
        simp [got_bind, this]
    rw [List.nil_append]
    exact (bind_ok this).trans (hlast _)
  · rw [List.cons_append, List.nil_append]
    exact (bind_ok (a := ()) (r := rest) rfl).trans (hlast _)
  · rw [List.cons_append, List.nil_append]
    exact (bind_ok (a := ()) (r := rest) rfl).trans (hlast _)

theorem digits_run {s r : Str} (hs : ∀ c ∈ s, Json.isDigit c = true) (hr : ∀ c ∈ r.head?, Json.isDigit c = false) :
    got digits (s ++ r) = some (s, r) := by
  rw [got_digits]
  induction s with
  | nil =>
    cases r with
    | nil => rfl
    | cons c r => simp [hr c (by simp)]
  | cons c s ih =>
    have hc := hs c (by simp)
    have := ih fun c hc => hs c (by simp [hc])
    simp only [Option.some.injEq, Prod.mk.injEq] at this ⊢
    simp [hc, this]

theorem skipNumber_int {n : Nat} {s r : Str} (hs : IntText n s) (hr : ∀ c ∈ r.head?, Json.isDigit c = false) :
    skipNumber (s ++ r) = skipFraction r := by
  obtain ⟨n1, n2, n3, -⟩ := Json.intText_iff.1 hs
  match s, n1, n2, n3 with
  | c :: s, _, n2, n3 =>
    have hc := n2 c (by simp)
    unfold skipNumber
    rw [List.cons_append, bind_ok (got_next _)]
    simp only [List.head?_cons, List.tail_cons]
    by_cases h0 : c = '0'
    · subst h0
      obtain rfl : s = [] := Classical.byContradiction fun h => n3 ⟨rfl, by simpa using h⟩
      rw [if_pos rfl, List.nil_append, bind_ok (got_peek _)]
      cases r with
      | nil => rfl
      | cons c r =>
        simp only [List.head?_cons]
        rw [if_neg (by simp [hr c (by simp)])]
    · rw [if_neg h0, if_pos hc, bind_ok (digits_run (fun c hc => n2 c (by simp [hc])) hr)]

theorem skipFraction_point {rest : Str} (hr : ∀ c ∈ rest.head?, Json.isDigit c = false) :
    skipFraction ('.' :: rest) = (.err (str! "invalid number") (some (rest.length - 1)), rest) := by
  unfold skipFraction
  rw [bind_ok (got_peek _)]
  simp only [List.head?_cons]
  rw [if_pos trivial, bind_ok (got_eat _), List.tail_cons]
  have := digits_run (s := []) (by simp) hr
  rw [List.nil_append] at this
  rw [bind_ok this, if_pos rfl]
  rfl

theorem skipFraction_exponent {f r : Str} {e : Char} (hf : FracText f) (he : e ∈ ['e', 'E']) :
    skipFraction (f ++ e :: r) = skipExponent (e :: r) := by
  have hd : ∀ c ∈ (e :: r).head?, Json.isDigit c = false := by
    intro c hc
    obtain rfl : e = c := by simpa using hc
    simp only [List.mem_cons, List.not_mem_nil, or_false] at he
    rcases he with rfl | rfl <;> decide
  unfold skipFraction
  rw [bind_ok (got_peek _)]
  rcases hf with rfl | ⟨ds, t, ht, rfl⟩
  · simp only [List.nil_append, List.head?_cons]
    rw [if_neg (by rintro rfl; revert he; decide)]
  · obtain ⟨h1, h2, -⟩ := Json.digitsText_iff.1 ht
    simp only [List.cons_append, List.head?_cons]
    rw [if_pos trivial, bind_ok (got_eat _), List.tail_cons, bind_ok (digits_run h2 hd), if_neg h1]

theorem frac_head {f r : Str} {e : Char} (hf : FracText f) (he : e ∈ ['e', 'E']) :
    ∀ c ∈ (f ++ e :: r).head?, Json.isDigit c = false := by
  intro c hc
  rcases hf with rfl | ⟨ds, t, ht, rfl⟩
  · obtain rfl : e = c := by simpa using hc
    simp only [List.mem_cons, List.not_mem_nil, or_false] at he
    rcases he with rfl | rfl <;> decide
  · obtain rfl : '.' = c := by simpa using hc
    decide

theorem skip_signed {neg : Bool} {n : Nat} {i y : Str} (k : Nat) (hi : IntText n i) :
    skip (k + 1) ((if neg then ['-'] else []) ++ (i ++ y)) = skipNumber (i ++ y) := by
  obtain ⟨n1, n2, -⟩ := Json.intText_iff.1 hi
  match i, n1, n2 with
  | c :: i, _, n2 =>
    have hc := n2 c (by simp)
    have hne : ∀ d : Char, Json.isDigit d = false → c ≠ d := by
      rintro d hd rfl; rw [hc] at hd; cases hd
    have hws : Json.isWs c = false := by
      simp [Json.isWs, hne ' ' (by decide), hne '\t' (by decide), hne '\n' (by decide), hne '\r' (by decide)]
    rw [skip, bind_ok (got_ws _)]
    cases neg with
    | true =>
      have e : Json.skipWs ((if true = true then ['-'] else []) ++ (c :: i ++ y)) = '-' :: (c :: i ++ y) :=
        skipWs_char (w := []) Ws.nil (by decide)
      rw [e]
      rfl
    | false =>
      have e : Json.skipWs ((if false = true then ['-'] else []) ++ (c :: i ++ y)) = c :: (i ++ y) :=
        skipWs_char (w := []) Ws.nil hws
      rw [e]
      simp only [List.head?_cons]
      rw [if_neg (hne _ (by decide)), if_neg (hne _ (by decide)), if_neg (hne _ (by decide)), if_neg (hne _ (by decide)),
        if_pos hc]
      rfl

theorem skip_ws {w s : Str} (k : Nat) (hw : Ws w) : skip (k + 1) (w ++ s) = skip (k + 1) s := by
  have e : Json.skipWs (w ++ s) = Json.skipWs s := Json.skipWs_append hw
  rw [skip, bind_ok (got_ws _), bind_ok (got_ws _), e]

theorem skip_unfinished {y rest : Str} (k : Nat) (hy : Unfinished y) (hr : ∀ c ∈ rest.head?, Json.isDigit c = false)
    (hr' : y.getLast? ∈ [some 'e', some 'E'] → ∀ c ∈ rest.head?, c ∉ ['+', '-']) :
    ∃ r, skip (k + 1) (y ++ rest) = (.err (str! "invalid number") (some (rest.length - 1)), r) := by
  cases hy with
  | minus =>
    have : ∃ r, skipNumber rest = (.err (str! "invalid number") (some (rest.length - 1)), r) := by
      unfold skipNumber
      rw [bind_ok (got_next _)]
      cases rest with
      | nil => exact ⟨_, rfl⟩
      | cons c rest =>
        have hc := hr c (by simp)
        simp only [List.head?_cons, List.tail_cons]
        rw [if_neg (by rintro rfl; revert hc; decide), if_neg (by simp [hc])]
        exact ⟨_, rfl⟩
    obtain ⟨r, h⟩ := this
    refine ⟨r, ?_⟩
    rw [← h, skip, bind_ok (got_ws _)]
    have e : Json.skipWs (['-'] ++ rest) = '-' :: rest := skipWs_char (w := []) Ws.nil (by decide)
    rw [e]
    rfl
  | point neg n s hs =>
    simp only [List.append_assoc]
    rw [skip_signed k hs]
    simp only [List.cons_append, List.nil_append]
    rw [skipNumber_int hs (by simp; decide), skipFraction_point hr]
    exact ⟨_, rfl⟩
  | exponent neg n s f sign e hs hf he hsign =>
    have hlast : sign = [] → ∀ c ∈ rest.head?, c ∉ ['+', '-'] := by
      rintro rfl
      refine hr' ?_
      rw [List.getLast?_append, List.getLast?_append, List.getLast?_append]
      simp only [List.mem_cons, List.not_mem_nil, or_false] at he
      rcases he with rfl | rfl <;> simp
    obtain ⟨r, h⟩ := skipExponent_bad he hsign hr hlast
    refine ⟨r, ?_⟩
    simp only [List.append_assoc, List.cons_append]
    rw [skip_signed k hs, skipNumber_int hs (frac_head hf he), skipFraction_exponent hf he, h]

theorem lead_other {fld : Str → Option (Reader Json)} {other : Reader Json} {k u w w' w1 s r m : Str} {seen : List Str}
    {b : Bool} {l : Option Nat} (n : Nat) (hk : fld k = none) (hw : Ws w) (hw' : Ws w')
    (hu : CharsText k u) (hw1 : Ws w1) (hf : other s = (.err m l, r)) :
    members fld other (n + 1) b seen (w ++ (sep b ++ (w' ++ '"' :: (wide u ++ '"' :: (w1 ++ ':' :: s))))) =
      (.err m l, r) := by
  unfold members
  rw [bind_ok (nextKey_some b hw hw' hu _)]
  simp only [hk]
  rw [bind_ok (colon_complete hw1 s), bind_err hf]

theorem not_ws {c : Char} (hc : c ∉ [' ', '\t', '\n', '\r']) : Json.isWs c = false := by
  simp only [List.mem_cons, List.not_mem_nil, or_false, not_or] at hc
  simp [Json.isWs, hc]

theorem not_digit {c : Char} (h : c ∉ str! "0123456789") : Json.isDigit c = false := by
  cases hd : Json.isDigit c with
  | false => rfl
  | true =>
    have hm : c ∈ Spec.digits.map Prod.fst := List.mem_map.2 ⟨_, Json.mem_digits.2 ⟨hd, rfl⟩, rfl⟩
    have : ∀ c ∈ Spec.digits.map Prod.fst, c ∈ str! "0123456789" := by decide
    exact absurd (this c hm) h

theorem ident_bad {c d : Char} {rest : Str} (hc : c ≠ d) : ∀ {p word : Str}, p ++ [d] <+: word →
    ident word (p ++ c :: rest) = (.err (str! "expected ident") (some rest.length), rest)
  | [], word, h => by
    obtain ⟨t, rfl⟩ := h
    show ident (d :: t) (c :: rest) = _
    rw [ident, bind_ok (got_next _)]
    simp only [List.head?_cons, List.tail_cons]
    rw [if_neg hc]
    rfl
  | a :: p, word, h => by
    obtain ⟨t, rfl⟩ := h
    rw [List.cons_append, List.cons_append, List.cons_append, ident, bind_ok (got_next _)]
    simp only [List.head?_cons, List.tail_cons]
    rw [if_pos trivial]
    exact ident_bad hc ⟨t, rfl⟩

theorem skip_misspelt {y m rest : Str} (k : Nat) (hy : Misspelt y m) :
    ∃ r, skip (k + 1) (y ++ rest) = (.err m (some rest.length), r) := by
  cases hy with
  | literal word p d c hword hp hd hc =>
    have hs : ∀ (a : Char) (s : Str), Json.isWs a = false → Json.skipWs (a :: s) = a :: s := fun a s ha =>
      skipWs_char (w := []) Ws.nil ha
    match p, hp, hd with
    | a :: p, _, hd =>
      refine ⟨rest, ?_⟩
      simp only [List.mem_cons, List.not_mem_nil, or_false] at hword
      rw [List.append_assoc, List.cons_append, List.cons_append, List.nil_append]
      rw [List.cons_append] at hd
      rw [skip, bind_ok (got_ws _)]
      rcases hword with rfl | rfl | rfl
      · obtain ⟨rfl, hd'⟩ := List.cons_prefix_cons.1 hd
        rw [hs _ _ (by decide)]
        exact ident_bad hc hd'
      · obtain ⟨rfl, hd'⟩ := List.cons_prefix_cons.1 hd
        rw [hs _ _ (by decide)]
        exact ident_bad hc hd'
      · obtain ⟨rfl, hd'⟩ := List.cons_prefix_cons.1 hd
        rw [hs _ _ (by decide)]
        exact ident_bad hc hd'
  | other c hws hc =>
    have hne : ∀ d ∈ str! "\"[{-0123456789ntf", c ≠ d := by rintro d hd rfl; exact hc hd
    have hdig : Json.isDigit c = false := not_digit fun h => by
      have : ∀ c ∈ str! "0123456789", c ∈ str! "\"[{-0123456789ntf" := by decide
      exact hc (this c h)
    have e : Json.skipWs ([c] ++ rest) = c :: rest := skipWs_char (w := []) Ws.nil (not_ws hws)
    refine ⟨c :: rest, ?_⟩
    rw [skip, bind_ok (got_ws _), e]
    simp only [List.head?_cons]
    rw [if_neg (hne _ (by decide)), if_neg (hne _ (by decide)), if_neg (hne _ (by decide)), if_neg (hne _ (by decide)),
      if_neg (by simp [hdig]), if_neg (hne _ (by decide)), if_neg (hne _ (by decide)), if_neg (hne _ (by decide))]
    rfl

end Reading

/-- C154. A name of a member of the body that is not followed by a colon: the place is behind the octet that is there
instead. -/
theorem C154_colon_body (x : Ext) (T : Texts) (b : Bytes) (kvs : List (Str × Json)) (t k n s w rest : Str) (c : Char)
    (hb : Octets b (t ++ (s ++ (w ++ c :: rest)))) (ht : BodyStart x kvs t)
    (hin : k ∈ claimNames → k ∉ kvs.map Prod.fst) (hn : StringText k n) (hs : Utf8Text n s) (hw : Ws w)
    (hc : c ∉ [' ', '\t', '\n', '\r', ':']) :
    ∃ text, bodyReport x T b = some text ∧
      Report b (str! "expected `:`") (t.length + s.length + w.length + 1) text := by
  obtain ⟨q, hq, rfl⟩ := hn
  obtain rfl := Json.utf8Text_iff.1 hs
  rw [Json.wide_quoted] at *
  have e : t ++ ('"' :: (wide q ++ ['"']) ++ (w ++ c :: rest)) = t ++ '"' :: (wide q ++ '"' :: (w ++ c :: rest)) := by
    simp
  obtain ⟨r, h⟩ := start_run (T := T) ht (fun m b w1 w2 hw1 hw2 => lead_colon m hw1 hw2 hq
    (fun hk hm => (mem_seenAfter.1 hm).elim (by simp) fun h => hin (bodyField_isSome.1 hk) h.2) hw
    (not_ws (c := c) (by simp at hc ⊢; tauto)) (rest := rest) (by simp at hc; tauto))
  rw [Option.getD_some, ← e] at h
  obtain ⟨text, h1, h2⟩ := body_report hb h
  refine ⟨text, h1, ?_⟩
  have hlen := octets_length hb
  simp only [List.length_append, List.length_cons, List.length_nil] at hlen ⊢
  rw [show b.length - rest.length = t.length + ((wide q).length + (0 + 1) + 1) + w.length + 1 by omega] at h2
  exact h2

/-- C154. The same for the header. -/
theorem C154_colon_header (T : Texts) (b : Bytes) (kvs : List (Str × Json)) (t k n s w rest : Str) (c : Char)
    (hb : Octets b (t ++ (s ++ (w ++ c :: rest)))) (ht : HeaderStart kvs t)
    (hin : k ∈ typAlg → k ∉ kvs.map Prod.fst) (hn : StringText k n) (hs : Utf8Text n s) (hw : Ws w)
    (hc : c ∉ [' ', '\t', '\n', '\r', ':']) :
    ∃ text, headerReport T b = some text ∧
      Report b (str! "expected `:`") (t.length + s.length + w.length + 1) text := by
  obtain ⟨q, hq, rfl⟩ := hn
  obtain rfl := Json.utf8Text_iff.1 hs
  rw [Json.wide_quoted] at *
  have e : t ++ ('"' :: (wide q ++ ['"']) ++ (w ++ c :: rest)) = t ++ '"' :: (wide q ++ '"' :: (w ++ c :: rest)) := by
    simp
  obtain ⟨r, h⟩ := header_start_run (T := T) ht (fun m b w1 w2 hw1 hw2 => lead_colon m hw1 hw2 hq
    (fun hk hm => (mem_seenAfter.1 hm).elim (by simp) fun h => hin (typAlg_iff.1 hk) h.2) hw
    (not_ws (c := c) (by simp at hc ⊢; tauto)) (rest := rest) (by simp at hc; tauto))
  rw [Option.getD_some, ← e] at h
  obtain ⟨text, h1, h2⟩ := header_report hb h
  refine ⟨text, h1, ?_⟩
  have hlen := octets_length hb
  simp only [List.length_append, List.length_cons, List.length_nil] at hlen ⊢
  rw [show b.length - rest.length = t.length + ((wide q).length + (0 + 1) + 1) + w.length + 1 by omega] at h2
  exact h2

/-- C154. A name in the body that is spoilt after some characters: the place is behind the first octet that is
wrong. -/
theorem C154_name_body (x : Ext) (T : Texts) (b : Bytes) (kvs : List (Str × Json)) (t v u s y m rest : Str) (k : Nat)
    (hb : Octets b (t ++ '"' :: (s ++ (y ++ rest)))) (ht : BodyStart x kvs t) (hu : CharsText v u) (hs : Utf8Text u s)
    (hy : Spoilt y k m) (hk : k ≤ rest.length) :
    ∃ text, bodyReport x T b = some text ∧ Report b m (t.length + 1 + s.length + y.length) text := by
  obtain rfl := Json.utf8Text_iff.1 hs
  obtain ⟨r, h⟩ := start_run (T := T) ht (fun n b w1 w2 hw1 hw2 => lead_spoilt n hw1 hw2 hu hy hk)
  rw [Option.getD_some] at h
  obtain ⟨text, h1, h2⟩ := body_report hb h
  refine ⟨text, h1, ?_⟩
  have hlen := octets_length hb
  simp only [List.length_append, List.length_cons] at hlen ⊢
  rw [show b.length - rest.length = t.length + 1 + (wide u).length + y.length by omega] at h2
  exact h2

/-- C154. The same for the header. -/
theorem C154_name_header (T : Texts) (b : Bytes) (kvs : List (Str × Json)) (t v u s y m rest : Str) (k : Nat)
    (hb : Octets b (t ++ '"' :: (s ++ (y ++ rest)))) (ht : HeaderStart kvs t) (hu : CharsText v u) (hs : Utf8Text u s)
    (hy : Spoilt y k m) (hk : k ≤ rest.length) :
    ∃ text, headerReport T b = some text ∧ Report b m (t.length + 1 + s.length + y.length) text := by
  obtain rfl := Json.utf8Text_iff.1 hs
  obtain ⟨r, h⟩ := header_start_run (T := T) ht (fun n b w1 w2 hw1 hw2 => lead_spoilt n hw1 hw2 hu hy hk)
  rw [Option.getD_some] at h
  obtain ⟨text, h1, h2⟩ := header_report hb h
  refine ⟨text, h1, ?_⟩
  have hlen := octets_length hb
  simp only [List.length_append, List.length_cons] at hlen ⊢
  rw [show b.length - rest.length = t.length + 1 + (wide u).length + y.length by omega] at h2
  exact h2

/-- C154. Something else than a name where one is due, and a closing brace behind a comma: the place is behind that
octet. -/
theorem C154_key_body (x : Ext) (T : Texts) (b : Bytes) (kvs : List (Str × Json)) (t rest : Str) (c : Char)
    (hb : Octets b (t ++ c :: rest)) (ht : BodyStart x kvs t) (hc : c ∉ [' ', '\t', '\n', '\r', '"'])
    (hk : c = '}' → kvs ≠ []) :
    ∃ text, bodyReport x T b = some text ∧
      Report b (if c = '}' then str! "trailing comma" else str! "key must be a string") (t.length + 1) text := by
  obtain ⟨r, h⟩ := start_key (T := T) (rest := rest) ht (not_ws (c := c) (by simp at hc ⊢; tauto)) (by simp at hc; tauto) hk
  obtain ⟨text, h1, h2⟩ := body_report hb h
  refine ⟨text, h1, ?_⟩
  have hlen := octets_length hb
  simp only [List.length_append, List.length_cons] at hlen ⊢
  rw [show b.length - rest.length = t.length + 1 by omega] at h2
  exact h2

/-- C154. The same for the header. -/
theorem C154_key_header (T : Texts) (b : Bytes) (kvs : List (Str × Json)) (t rest : Str) (c : Char)
    (hb : Octets b (t ++ c :: rest)) (ht : HeaderStart kvs t) (hc : c ∉ [' ', '\t', '\n', '\r', '"'])
    (hk : c = '}' → kvs ≠ []) :
    ∃ text, headerReport T b = some text ∧
      Report b (if c = '}' then str! "trailing comma" else str! "key must be a string") (t.length + 1) text := by
  obtain ⟨r, h⟩ := header_start_key (T := T) (rest := rest) ht (not_ws (c := c) (by simp at hc ⊢; tauto))
    (by simp at hc; tauto) hk
  obtain ⟨text, h1, h2⟩ := header_report hb h
  refine ⟨text, h1, ?_⟩
  have hlen := octets_length hb
  simp only [List.length_append, List.length_cons] at hlen ⊢
  rw [show b.length - rest.length = t.length + 1 by omega] at h2
  exact h2

/-- C154. Something else than a comma or closing brace behind a member: the place is behind that octet. (Behind a number
without white space it must not be one that belongs to the number.) -/
theorem C154_comma_body (x : Ext) (T : Texts) (b : Bytes) (kvs : List (Str × Json)) (t k s w rest : Str) (v : Json)
    (c : Char) (hb : Octets b (t ++ (s ++ (w ++ c :: rest)))) (ht : BodyStart x kvs t)
    (hs : LooseMember claimNames k v s) (hv : ClaimValue x k v) (hin : k ∈ claimNames → k ∉ kvs.map Prod.fst)
    (hw : Ws w) (hc : c ∉ [' ', '\t', '\n', '\r', ',', '}']) (hnum : w = [] → c ∉ str! "0123456789.eE") :
    ∃ text, bodyReport x T b = some text ∧
      Report b (str! "expected `,` or `}`") (t.length + s.length + w.length + 1) text := by
  have hws := not_ws (c := c) (by simp at hc ⊢; tauto)
  obtain ⟨w0, lead, w1, w2, b0, rfl, hw0, hw1, hw2, hl, hf, -⟩ := bodyStart_lead T ht
  obtain ⟨u, x1, x2, y, hu, hx1, hx2, hy, rfl⟩ := looseMember_iff.1 hs
  have hl' := lead_snoc hl hw1 hw2 hu hx1 hx2 ⟨hy, claim_iff.1 hv⟩
  have hf' := fresh_snoc (v := v) hf (fun h => ⟨by simp, hin (bodyField_isSome.1 h)⟩)
  obtain ⟨r, h⟩ := body_comma_run (rest := rest) hw0 hl' hf' hw hws (by simp at hc; tauto) (by simp at hc; tauto) hnum
  obtain ⟨text, g1, g2⟩ := body_report (by simpa using hb) h
  refine ⟨text, g1, ?_⟩
  have hlen := octets_length hb
  simp only [List.length_append, List.length_cons] at hlen ⊢
  convert g2 using 1
  omega

/-- C154. The same for the header. -/
theorem C154_comma_header (T : Texts) (b : Bytes) (kvs : List (Str × Json)) (t k s u w rest : Str) (v : Json)
    (c : Char) (hb : Octets b (t ++ (u ++ (w ++ c :: rest)))) (ht : HeaderStart kvs t) (hs : MemberText k v s)
    (hd : depth v ≤ 126) (hu : Utf8Text s u) (hv : HeaderValue k v) (hin : k ∈ typAlg → k ∉ kvs.map Prod.fst)
    (hw : Ws w) (hc : c ∉ [' ', '\t', '\n', '\r', ',', '}']) (hnum : w = [] → c ∉ str! "0123456789.eE") :
    ∃ text, headerReport T b = some text ∧
      Report b (str! "expected `,` or `}`") (t.length + u.length + w.length + 1) text := by
  have hws := not_ws (c := c) (by simp at hc ⊢; tauto)
  obtain ⟨w0, lead, w1, w2, b0, rfl, hw0, hw1, hw2, hl, hf, -⟩ := headerStart_lead T ht
  obtain rfl := Json.utf8Text_iff.1 hu
  cases hs with
  | mk k v n x1 x2 y hn hx1 hx2 hy =>
  obtain ⟨q, hq, rfl⟩ := hn
  have hl' := lead_snoc hl hw1 hw2 hq hx1 hx2 ⟨⟨y, hy, hd, rfl⟩, headerValue_iff.1 hv⟩
  have hf' := fresh_snoc (v := v) hf (fun h => ⟨by simp, hin (typAlg_iff.1 h)⟩)
  obtain ⟨r, h⟩ := header_comma_run (rest := rest) hw0 hl' hf' hw hws (by simp at hc; tauto) (by simp at hc; tauto) hnum
  rw [Json.wide_append, Json.wide_append, Json.wide_quoted, Json.wide_ascii (by decide), Json.wide_append,
    Json.wide_ws hx1, Json.wide_ws hx2] at hb ⊢
  obtain ⟨text, g1, g2⟩ := header_report (by simpa using hb) h
  refine ⟨text, g1, ?_⟩
  have hlen := octets_length hb
  simp only [List.length_append, List.length_cons] at hlen ⊢
  convert g2 using 1
  omega

/-- C154. A number in a member the body does not know that lacks a digit, after its sign, point or exponent: the place
is behind the octet in place of the digit, or at the end. -/
theorem C154_number_body (x : Ext) (T : Texts) (b : Bytes) (kvs : List (Str × Json)) (t k n s w w' y rest : Str)
    (hb : Octets b (t ++ (s ++ (w ++ ':' :: (w' ++ (y ++ rest)))))) (ht : BodyStart x kvs t) (hk : k ∉ claimNames)
    (hn : StringText k n) (hs : Utf8Text n s) (hw : Ws w) (hw' : Ws w') (hy : Unfinished y)
    (hr : ∀ c ∈ rest.head?, c ∉ str! "0123456789")
    (hr' : y.getLast? ∈ [some 'e', some 'E'] → ∀ c ∈ rest.head?, c ∉ ['+', '-']) :
    ∃ text, bodyReport x T b = some text ∧ Report b (str! "invalid number")
      (t.length + s.length + w.length + 1 + w'.length + y.length + min 1 rest.length) text := by
  obtain ⟨q, hq, rfl⟩ := hn
  obtain rfl := Json.utf8Text_iff.1 hs
  rw [Json.wide_quoted] at *
  have hd : ∀ c ∈ rest.head?, Json.isDigit c = false := fun c hc => not_digit (hr c hc)
  obtain ⟨r0, h0⟩ := skip_unfinished (2 * (w' ++ (y ++ rest)).length + 1) hy hd hr'
  have h1 : ignored (w' ++ (y ++ rest)) = (.err (str! "invalid number") (some (rest.length - 1)), r0) := by
    unfold ignored
    exact bind_err ((skip_ws _ hw').trans h0)
  have hf : bodyField x T k = none := by
    rw [← Option.not_isSome_iff_eq_none, bodyField_isSome]; exact hk
  have e : t ++ ('"' :: (wide q ++ ['"']) ++ (w ++ ':' :: (w' ++ (y ++ rest)))) =
      t ++ '"' :: (wide q ++ '"' :: (w ++ ':' :: (w' ++ (y ++ rest)))) := by simp
  obtain ⟨r, h⟩ := start_run (T := T) ht (fun m b w1 w2 hw1 hw2 => lead_other m hf hw1 hw2 hq hw h1)
  rw [Option.getD_some, ← e] at h
  obtain ⟨text, g1, g2⟩ := body_report hb h
  refine ⟨text, g1, ?_⟩
  have hlen := octets_length hb
  simp only [List.length_append, List.length_cons, List.length_nil] at hlen ⊢
  rw [show b.length - (rest.length - 1) = t.length + ((wide q).length + (0 + 1) + 1) + w.length + 1 + w'.length +
    y.length + min 1 rest.length by omega] at g2
  exact g2

/-- C154. Something that is no value in a member the body does not know: the place is behind the first wrong octet. -/
theorem C154_value_body (x : Ext) (T : Texts) (b : Bytes) (kvs : List (Str × Json)) (t k n s w w' y m rest : Str)
    (hb : Octets b (t ++ (s ++ (w ++ ':' :: (w' ++ (y ++ rest)))))) (ht : BodyStart x kvs t) (hk : k ∉ claimNames)
    (hn : StringText k n) (hs : Utf8Text n s) (hw : Ws w) (hw' : Ws w') (hy : Misspelt y m) :
    ∃ text, bodyReport x T b = some text ∧
      Report b m (t.length + s.length + w.length + 1 + w'.length + y.length) text := by
  obtain ⟨q, hq, rfl⟩ := hn
  obtain rfl := Json.utf8Text_iff.1 hs
  rw [Json.wide_quoted] at *
  obtain ⟨r0, h0⟩ := skip_misspelt (rest := rest) (2 * (w' ++ (y ++ rest)).length + 1) hy
  have h1 : ignored (w' ++ (y ++ rest)) = (.err m (some rest.length), r0) := by
    unfold ignored
    exact bind_err ((skip_ws _ hw').trans h0)
  have hf : bodyField x T k = none := by
    rw [← Option.not_isSome_iff_eq_none, bodyField_isSome]; exact hk
  have e : t ++ ('"' :: (wide q ++ ['"']) ++ (w ++ ':' :: (w' ++ (y ++ rest)))) =
      t ++ '"' :: (wide q ++ '"' :: (w ++ ':' :: (w' ++ (y ++ rest)))) := by simp
  obtain ⟨r, h⟩ := start_run (T := T) ht (fun m b w1 w2 hw1 hw2 => lead_other m hf hw1 hw2 hq hw h1)
  rw [Option.getD_some, ← e] at h
  obtain ⟨text, g1, g2⟩ := body_report hb h
  refine ⟨text, g1, ?_⟩
  have hlen := octets_length hb
  simp only [List.length_append, List.length_cons, List.length_nil] at hlen ⊢
  rw [show b.length - rest.length = t.length + ((wide q).length + (0 + 1) + 1) + w.length + 1 + w'.length +
    y.length by omega] at g2
  exact g2

namespace Ex

/-- A literal in capitals from its second letter on, and one in capitals altogether. -/
example (b' : Bytes) : ∃ text, bodyReport Ex.ext texts (utf8Encode (str! "{\"a\":nU") ++ b') = some text ∧
    Report (utf8Encode (str! "{\"a\":nU") ++ b') (str! "expected ident") 7 text :=
  C154_value_body Ex.ext texts _ [] ['{'] (str! "a") (str! "\"a\"") (str! "\"a\"") [] [] (str! "nU") _ (octets b')
    (Json.octets_iff.2 (by simp only [octets, List.map_append]; rfl)) (.brace [] [] Ws.nil Ws.nil) (by decide)
    ⟨_, plain (str! "a") (by decide), rfl⟩ (Json.utf8Text_iff.2 (by decide)) Ws.nil Ws.nil
    (.literal (str! "null") ['n'] 'u' 'U' (by decide) (by decide) ⟨str! "ll", rfl⟩ (by decide))

example (b' : Bytes) : ∃ text, bodyReport Ex.ext texts (utf8Encode (str! "{\"a\":N") ++ b') = some text ∧
    Report (utf8Encode (str! "{\"a\":N") ++ b') (str! "expected value") 6 text :=
  C154_value_body Ex.ext texts _ [] ['{'] (str! "a") (str! "\"a\"") (str! "\"a\"") [] [] ['N'] _ (octets b')
    (Json.octets_iff.2 (by simp only [octets, List.map_append]; rfl)) (.brace [] [] Ws.nil Ws.nil) (by decide)
    ⟨_, plain (str! "a") (by decide), rfl⟩ (Json.utf8Text_iff.2 (by decide)) Ws.nil Ws.nil
    (.other 'N' (by decide) (by decide))

/-- A body that ends within the exponent of a number, and one with a letter there. -/
theorem one_e : Unfinished (str! "1e") :=
  .exponent false 1 ['1'] [] [] 'e' (Json.intText_iff.2 (by decide)) (.inl rfl) (by decide) (by decide)

example : ∃ text, bodyReport Ex.ext texts (utf8Encode (str! "{\"a\":1e")) = some text ∧
    Report (utf8Encode (str! "{\"a\":1e")) (str! "invalid number") 7 text :=
  C154_number_body Ex.ext texts _ [] ['{'] (str! "a") (str! "\"a\"") (str! "\"a\"") [] [] (str! "1e") []
    (Json.octets_iff.2 (by decide)) (.brace [] [] Ws.nil Ws.nil) (by decide) ⟨_, plain (str! "a") (by decide), rfl⟩
    (Json.utf8Text_iff.2 (by decide)) Ws.nil Ws.nil one_e (by simp) (by simp)

example (b' : Bytes) : ∃ text, bodyReport Ex.ext texts (utf8Encode (str! "{\"a\":1ex") ++ b') = some text ∧
    Report (utf8Encode (str! "{\"a\":1ex") ++ b') (str! "invalid number") 8 text := by
  have := C154_number_body Ex.ext texts (utf8Encode (str! "{\"a\":1ex") ++ b') [] ['{'] (str! "a") (str! "\"a\"")
    (str! "\"a\"") [] [] (str! "1e") ('x' :: octets b')
    (Json.octets_iff.2 (by simp only [octets, List.map_append]; rfl)) (.brace [] [] Ws.nil Ws.nil) (by decide)
    ⟨_, plain (str! "a") (by decide), rfl⟩ (Json.utf8Text_iff.2 (by decide)) Ws.nil Ws.nil one_e (by simp) (by simp)
  rw [show min 1 ('x' :: octets b').length = 1 by simp] at this
  exact this

/-- A name without quotation marks, on the second line. -/
example (b' : Bytes) : ∃ text, bodyReport Ex.ext texts (utf8Encode (str! "{\n i") ++ b') = some text ∧
    Report (utf8Encode (str! "{\n i") ++ b') (str! "key must be a string") 4 text :=
  C154_key_body Ex.ext texts _ [] (str! "{\n ") (octets b') 'i'
    (Json.octets_iff.2 (by simp only [octets, List.map_append]; rfl)) (.brace [] (str! "\n ") Ws.nil (by simp [Ws]))
    (by decide) (by decide)

/-- A comma behind the last member. -/
example : ∃ text, headerReport texts (utf8Encode (str! "{\"typ\":\"x\",}")) = some text ∧
    Report (utf8Encode (str! "{\"typ\":\"x\",}")) (str! "trailing comma") 12 text :=
  C154_key_header texts _ _ _ [] '}' (Json.octets_iff.2 (by decide)) type_start (by decide) (by decide)

/-- A semicolon behind the audience. -/
example (b' : Bytes) : ∃ text, bodyReport Ex.ext texts (utf8Encode (str! "{\"aud\":\"a\" ;") ++ b') = some text ∧
    Report (utf8Encode (str! "{\"aud\":\"a\" ;") ++ b') (str! "expected `,` or `}`") 12 text :=
  C154_comma_body Ex.ext texts _ [] ['{'] (str! "aud") (str! "\"aud\":\"a\"") [' '] (octets b') (.str (str! "a")) ';'
    (Json.octets_iff.2 (by simp only [octets, List.map_append]; rfl)) (.brace [] [] Ws.nil Ws.nil) audience audience_value
    (by simp) (by simp [Ws]) (by decide) (by decide)

/-- An equals sign in place of the colon, whatever follows. -/
example (b' : Bytes) : ∃ text, bodyReport Ex.ext texts (utf8Encode (str! "{\"iat\" =") ++ b') = some text ∧
    Report (utf8Encode (str! "{\"iat\" =") ++ b') (str! "expected `:`") 8 text :=
  C154_colon_body Ex.ext texts _ [] ['{'] (str! "iat") (str! "\"iat\"") (str! "\"iat\"") [' '] (octets b') '='
    (Json.octets_iff.2 (by simp only [octets, List.map_append]; rfl)) (.brace [] [] Ws.nil Ws.nil) (by simp)
    ⟨_, plain (str! "iat") (by decide), rfl⟩ (Json.utf8Text_iff.2 (by decide)) (by simp [Ws]) (by decide)

/-- A third digit that is none. -/
example (b' : Bytes) : ∃ text, headerReport texts (utf8Encode (str! "{\"a\\u00g0") ++ b') = some text ∧
    Report (utf8Encode (str! "{\"a\\u00g0") ++ b') (str! "invalid escape") 8 text :=
  C154_name_header texts _ [] ['{'] (str! "a") (str! "a") (str! "a") (str! "\\u00g") _ ('0' :: octets b') 1
    (Json.octets_iff.2 (by simp only [octets, List.map_append]; rfl)) (.brace [] [] Ws.nil Ws.nil)
    (plain (str! "a") (by decide)) (Json.utf8Text_iff.2 (by decide))
    (.digit (str! "00") 'g' 1 (by decide) (by decide) rfl) (by simp)

end Ex
end Oid4vci
