import Mathlib.Tactic.Ring
import Verif.Lemmas.Shortest

/-! `serde_json::to_string` followed by parsing is the identity, but for floating-point numbers. -/

namespace Oid4vci
namespace Json

open Spec

/-! ### String literals -/

theorem hex4_control (n : Fin 32) :
    hex4 '0' '0' (hexLower (n.1 / 16)) (hexLower (n.1 % 16)) = some n.1 := by
  revert n; decide

theorem parseStr_escape (c : Char) (s : Str) :
    parseStr (escapeChar c ++ s) = (parseStr s).map fun p => (c :: p.1, p.2) := by
  unfold escapeChar
  split
  · subst c; rw [parseStr.eq_def]; simp [simpleEscape]
  split
  · subst c; rw [parseStr.eq_def]; simp [simpleEscape]
  split
  · rename_i h
    have : c = Char.ofNat 8 := by rw [← h, Char.ofNat_toNat]
    subst this; rw [parseStr.eq_def]; simp [simpleEscape]
  split
  · rename_i h
    have : c = Char.ofNat 12 := by rw [← h, Char.ofNat_toNat]
    subst this; rw [parseStr.eq_def]; simp [simpleEscape]
  split
  · subst c; rw [parseStr.eq_def]; simp [simpleEscape]
  split
  · subst c; rw [parseStr.eq_def]; simp [simpleEscape]
  split
  · subst c; rw [parseStr.eq_def]; simp [simpleEscape]
  split
  · rename_i h
    have h4 := hex4_control ⟨c.toNat, h⟩
    simp only at h4
    rw [parseStr.eq_def]
    simp only [List.cons_append, List.nil_append, Char.reduceEq, if_true, if_false, h4]
    rw [if_neg (by omega), if_neg (by omega), Char.ofNat_toNat]
  · rename_i h1 h2 _ _ _ _ _ h3
    rw [parseStr.eq_def]
    simp [h1, h2, h3]

theorem parseStr_printed (s rest : Str) :
    parseStr (s.flatMap escapeChar ++ '"' :: rest) = some (s, rest) := by
  induction s with
  | nil => rw [parseStr.eq_def]; simp
  | cons c s ih => rw [List.flatMap_cons, List.append_assoc, parseStr_escape, ih]; rfl

/-! ### Numbers -/

theorem parseNumber_natDigits (neg : Bool) (n : Nat) (rest : Str) (hr : Ends rest)
    (hn : if neg then n ≠ 0 ∧ n ≤ 2 ^ 63 else n < 2 ^ 64) :
    parseNumber neg (natDigits n ++ rest) = some (.num (if neg then -(n : Int) else n), rest) := by
  obtain ⟨f1, f2, f3, f4, f5⟩ := natDigits_facts (n + 1) n (by omega)
  obtain ⟨t1, t2⟩ := takeWhile_digits _ rest f1 hr
  have hz : ¬ ((natDigitsAux (n + 1) n []).head? = some '0' ∧ natDigitsAux (n + 1) n [] ≠ ['0']) := by
    by_cases h0 : n = 0
    · simp [f5 h0]
    · simp [f4 h0]
  unfold parseNumber natDigits
  rw [t1, t2]
  simp only [f3, if_false, hz, parseFrac_ends rest hr, f2, ne_eq, not_true_eq_false]
  cases neg with
  | false => simp only [Bool.false_eq_true, if_false] at hn ⊢; rw [if_pos hn]
  | true =>
    simp only [if_true] at hn ⊢
    rw [if_neg (by omega)]

/-! ### Documents -/

/-- A printed floating-point number is scanned as such. -/
theorem parseNumber_printFloat {d : Double} (hd : IsDouble d.mant d.exp) {rest : Str} (hr : Ends rest) :
    (∃ t, printFloat d = '-' :: t ∧ parseNumber true (t ++ rest) = some (.float (printFloat d), rest)) ∨
    (∃ c t, printFloat d = c :: t ∧ isDigit c = true ∧
      parseNumber false (printFloat d ++ rest) = some (.float (printFloat d), rest)) :=
  number_complete (shown_parts (shown_printFloat hd)).1 hr

theorem readNumber_lexeme {neg : Bool} {s l r : Str} (h : parseNumber neg s = some (.float l, r)) :
    readNumber neg s = (readFloat l).map fun d => (float d, r) := by
  unfold readNumber
  rw [h]

mutual
/-- The document read from the printed text. -/
def reread : Json → Option Json
  | null => some null
  | bool b => some (bool b)
  | num n => some (num n)
  | float d => (readFloat (printFloat d)).map float
  | str s => some (str s)
  | arr xs => (rereadList xs).map arr
  | obj kvs => (rereadMembers kvs).map obj
/-- Its elements. -/
def rereadList : List Json → Option (List Json)
  | [] => some []
  | x :: xs => (reread x).bind fun x => (rereadList xs).map (x :: ·)
/-- Its members. -/
def rereadMembers : List (Str × Json) → Option (List (Str × Json))
  | [] => some []
  | (k, v) :: kvs => (reread v).bind fun v => (rereadMembers kvs).map ((k, v) :: ·)
end

mutual
theorem rust_of_plain (v : Json) (h : PlainNumbers v) : RustNumbers v := by
  match v, h with
  | null, _ | bool _, _ | str _, _ => trivial
  | num _, h => simpa only [PlainNumbers, RustNumbers] using h
  | float d, h => rw [PlainNumbers] at h; rw [RustNumbers]; exact h.1
  | arr xs, h => rw [PlainNumbers] at h; rw [RustNumbers]; exact rust_of_plainList xs h
  | obj kvs, h => rw [PlainNumbers] at h; rw [RustNumbers]; exact rust_of_plainMembers kvs h
theorem rust_of_plainList (xs : List Json) (h : PlainNumbersList xs) : RustNumbersList xs := by
  match xs, h with
  | [], _ => trivial
  | x :: xs, h =>
    rw [PlainNumbersList] at h; rw [RustNumbersList]; exact ⟨rust_of_plain x h.1, rust_of_plainList xs h.2⟩
theorem rust_of_plainMembers (kvs : List (Str × Json)) (h : PlainNumbersMembers kvs) : RustNumbersMembers kvs := by
  match kvs, h with
  | [], _ => trivial
  | (k, x) :: xs, h =>
    rw [PlainNumbersMembers] at h; rw [RustNumbersMembers]; exact ⟨rust_of_plain x h.1, rust_of_plainMembers xs h.2⟩
end

theorem readFloat_printFloat {d : Double} (hd : IsDouble d.mant d.exp) {d' : Double} :
    readFloat (printFloat d) = some d' ↔ ReadAs (printFloat d) d' := by
  obtain ⟨-, -, i, f, x, hp, -⟩ := shown_parts (shown_printFloat hd)
  exact (readAs_iff hp).symm

mutual
theorem reread_plain (v : Json) (h : RustNumbers v) : reread v = some v ↔ PlainNumbers v := by
  match v, h with
  | null, _ | bool _, _ | str _, _ => simp [reread, PlainNumbers]
  | num _, h => rw [RustNumbers] at h; simp only [reread, PlainNumbers, h, true_and]
  | float d, h =>
    rw [RustNumbers] at h
    rw [reread, PlainNumbers, survives_iff, ← readFloat_printFloat h]
    cases readFloat (printFloat d) with
    | none => simp
    | some d' => simp [h]
  | arr xs, h =>
    rw [RustNumbers] at h
    have := reread_plainList xs h
    rw [reread, PlainNumbers, ← this]
    cases rereadList xs <;> simp
  | obj kvs, h =>
    rw [RustNumbers] at h
    have := reread_plainMembers kvs h
    rw [reread, PlainNumbers, ← this]
    cases rereadMembers kvs <;> simp
theorem reread_plainList (xs : List Json) (h : RustNumbersList xs) :
    rereadList xs = some xs ↔ PlainNumbersList xs := by
  match xs, h with
  | [], _ => simp [rereadList, PlainNumbersList]
  | x :: xs, h =>
    rw [RustNumbersList] at h
    rw [rereadList, PlainNumbersList, ← reread_plain x h.1, ← reread_plainList xs h.2]
    cases reread x <;> cases rereadList xs <;> simp
theorem reread_plainMembers (kvs : List (Str × Json)) (h : RustNumbersMembers kvs) :
    rereadMembers kvs = some kvs ↔ PlainNumbersMembers kvs := by
  match kvs, h with
  | [], _ => simp [rereadMembers, PlainNumbersMembers]
  | (k, x) :: xs, h =>
    rw [RustNumbersMembers] at h
    rw [rereadMembers, PlainNumbersMembers, ← reread_plain x h.1, ← reread_plainMembers xs h.2]
    cases reread x <;> cases rereadMembers xs <;> simp
end

theorem printStr_ne (k : Str) : ∃ t, printStr k = '"' :: t := ⟨_, rfl⟩

/-- The first character of printed text: no white space and no closing bracket. -/
theorem print_cons (v : Json) (h : RustNumbers v) :
    ∃ c t, print v = c :: t ∧ isWs c = false ∧ c ≠ ']' ∧ c ≠ '}' := by
  match v with
  | null => exact ⟨_, _, rfl, by decide⟩
  | bool true => exact ⟨_, _, rfl, by decide⟩
  | bool false => exact ⟨_, _, rfl, by decide⟩
  | num (.ofNat n) =>
    obtain ⟨c, t, e, hd⟩ := natDigits_cons n
    obtain ⟨h1, -, -, -, h2, h3, -⟩ := isDigit_facts hd
    exact ⟨c, t, by simp [print, printInt, e], h1, h2, h3⟩
  | num (.negSucc n) => exact ⟨_, _, rfl, by decide⟩
  | float d =>
    rw [RustNumbers] at h
    rcases parseNumber_printFloat h (rest := []) (by intro c hc; simp at hc) with ⟨t, e, -⟩ | ⟨c, t, e, hd, -⟩
    · exact ⟨_, t, by rw [print, e], by decide⟩
    · obtain ⟨h1, -, -, -, h2, h3, -⟩ := isDigit_facts hd
      exact ⟨c, t, by rw [print, e], h1, h2, h3⟩
  | str s => exact ⟨_, _, rfl, by decide⟩
  | arr [] => exact ⟨_, _, rfl, by decide⟩
  | arr (x :: xs) => exact ⟨'[', _, by rw [print], by decide⟩
  | obj [] => exact ⟨_, _, rfl, by decide⟩
  | obj ((k, v) :: kvs) => exact ⟨'{', _, by rw [print], by decide⟩

theorem skipWs_cons {c : Char} {t : Str} (h : isWs c = false) : skipWs (c :: t) = c :: t := by
  simp [skipWs, h]

theorem printElems_cons (xs : List Json) : ∃ c t, printElems xs = c :: t ∧
    isDigit c = false ∧ c ≠ '.' ∧ c ≠ 'e' ∧ c ≠ 'E' := by
  cases xs with
  | nil => exact ⟨_, _, rfl, by decide⟩
  | cons x xs => exact ⟨',', _, by rw [printElems], by decide⟩

theorem printMembers_cons (xs : List (Str × Json)) : ∃ c t, printMembers xs = c :: t ∧
    isDigit c = false ∧ c ≠ '.' ∧ c ≠ 'e' ∧ c ≠ 'E' := by
  cases xs with
  | nil => exact ⟨_, _, rfl, by decide⟩
  | cons x xs => exact ⟨',', _, by rw [printMembers], by decide⟩

theorem ends_printElems (xs : List Json) (rest : Str) : Ends (printElems xs ++ rest) := by
  obtain ⟨c, t, e, h⟩ := printElems_cons xs
  intro c' hc'
  rw [e] at hc'; simp at hc'; subst hc'; exact h

theorem ends_printMembers (xs : List (Str × Json)) (rest : Str) :
    Ends (printMembers xs ++ rest) := by
  obtain ⟨c, t, e, h⟩ := printMembers_cons xs
  intro c' hc'
  rw [e] at hc'; simp at hc'; subst hc'; exact h

mutual
theorem parseValue_reread (v : Json) (hp : RustNumbers v) (d f : Nat) (rest : Str)
    (hd : depth v ≤ d) (hf : (print v).length ≤ f) (hr : (∃ n, v = num n) ∨ (∃ d, v = float d) → Ends rest) :
    parseValue f d (print v ++ rest) = (reread v).map (·, rest) := by
  match v, hp, hd, hf, hr with
  | null, _, _, hf, _ =>
    obtain ⟨f, rfl⟩ : ∃ g, f = g + 1 := ⟨f - 1, by simp [print] at hf; omega⟩
    simp [print, parseValue, skipWs, isWs, isDigit, reread]
  | bool true, _, _, hf, _ =>
    obtain ⟨f, rfl⟩ : ∃ g, f = g + 1 := ⟨f - 1, by simp [print] at hf; omega⟩
    simp [print, parseValue, skipWs, isWs, isDigit, reread]
  | bool false, _, _, hf, _ =>
    obtain ⟨f, rfl⟩ : ∃ g, f = g + 1 := ⟨f - 1, by simp [print] at hf; omega⟩
    simp [print, parseValue, skipWs, isWs, isDigit, reread]
  | num (.ofNat n), hp, _, hf, hr =>
    obtain ⟨c, t, e, hdig⟩ := natDigits_cons n
    obtain ⟨h1, h2, h3, h4, -, -, h5, -⟩ := isDigit_facts hdig
    simp only [print, printInt] at hf ⊢
    obtain ⟨f, rfl⟩ : ∃ g, f = g + 1 := ⟨f - 1, by rw [e] at hf; simp at hf; omega⟩
    have hn := readNumber_num <| parseNumber_natDigits false n rest (hr (.inl ⟨_, rfl⟩)) (by simp [RustNumbers] at hp; simp; omega)
    rw [e, List.cons_append] at hn ⊢
    rw [parseValue, skipWs_cons h1]
    simp only [h2, h3, h4, h5, hdig, if_true, if_false, hn]
    rfl
  | num (.negSucc n), hp, _, hf, hr =>
    simp only [print, printInt] at hf ⊢
    obtain ⟨f, rfl⟩ : ∃ g, f = g + 1 := ⟨f - 1, by simp at hf; omega⟩
    have hn := readNumber_num <| parseNumber_natDigits true (n + 1) rest (hr (.inl ⟨_, rfl⟩)) (by
      simp only [RustNumbers] at hp; simp; omega)
    rw [List.cons_append, parseValue, skipWs_cons (by decide)]
    simp only [Char.reduceEq, if_true, if_false, hn]
    rfl
  | float x, hp, _, hf, hr =>
    rw [RustNumbers] at hp
    have hr := hr (.inr ⟨_, rfl⟩)
    rw [print] at hf ⊢
    rw [reread, Option.map_map]
    rcases parseNumber_printFloat hp hr with ⟨t, e, hn⟩ | ⟨c, t, e, hdig, hn⟩
    · obtain ⟨f, rfl⟩ : ∃ g, f = g + 1 := ⟨f - 1, by rw [e] at hf; simp at hf; omega⟩
      have hn := readNumber_lexeme hn
      generalize readFloat (printFloat x) = o at *
      rw [e, List.cons_append, parseValue, skipWs_cons (by decide)]
      simp only [Char.reduceEq, if_true, if_false, hn]
      rfl
    · obtain ⟨f, rfl⟩ : ∃ g, f = g + 1 := ⟨f - 1, by rw [e] at hf; simp at hf; omega⟩
      obtain ⟨h1, h2, h3, h4, -, -, h5, -⟩ := isDigit_facts hdig
      have hn := readNumber_lexeme hn
      generalize readFloat (printFloat x) = o at *
      rw [e, List.cons_append] at hn ⊢
      rw [parseValue, skipWs_cons h1]
      simp only [h2, h3, h4, h5, hdig, if_true, if_false, hn]
      rfl
  | str s, _, _, hf, _ =>
    obtain ⟨f, rfl⟩ : ∃ g, f = g + 1 := ⟨f - 1, by simp [print, printStr] at hf; omega⟩
    have : print (str s) ++ rest = '"' :: (s.flatMap escapeChar ++ '"' :: rest) := by
      simp [print, printStr]
    rw [this, parseValue, skipWs_cons (by decide)]
    simp [parseStr_printed, reread]
  | arr [], _, hd, hf, _ =>
    obtain ⟨f, rfl⟩ : ∃ g, f = g + 1 := ⟨f - 1, by simp [print] at hf; omega⟩
    obtain ⟨d, rfl⟩ : ∃ g, d = g + 1 := ⟨d - 1, by simp [depth] at hd; omega⟩
    simp [print, parseValue, skipWs, isWs, reread, rereadList]
  | arr (x :: xs), hp, hd, hf, _ =>
    simp only [RustNumbers, RustNumbersList] at hp
    simp only [print, List.length_cons, List.length_append] at hf
    simp only [depth, depthList] at hd
    obtain ⟨f, rfl⟩ : ∃ g, f = g + 1 := ⟨f - 1, by omega⟩
    obtain ⟨d, rfl⟩ : ∃ g, d = g + 1 := ⟨d - 1, by omega⟩
    have h1 := parseValue_reread x hp.1 d f (printElems xs ++ rest) (by omega) (by omega)
      (fun _ => ends_printElems xs rest)
    have h2 := parseElems_reread xs hp.2 d f rest (by omega) (by omega)
    obtain ⟨c, t, e, hw, hb, -⟩ := print_cons x hp.1
    rw [print, List.cons_append, parseValue, skipWs_cons (by decide)]
    simp only [Char.reduceEq, if_true, if_false, List.append_assoc]
    have hs : skipWs (print x ++ (printElems xs ++ rest)) = c :: (t ++ (printElems xs ++ rest)) := by
      rw [e, List.cons_append, skipWs_cons hw]
    rw [hs]
    split
    · rename_i heq; simp at heq; exact absurd heq.1 hb
    · rw [h1, reread, rereadList]
      cases reread x with
      | none => rfl
      | some x' =>
        simp only [Option.map_some, Option.bind_some]
        rw [h2]
        cases rereadList xs <;> rfl
  | obj [], _, hd, hf, _ =>
    obtain ⟨f, rfl⟩ : ∃ g, f = g + 1 := ⟨f - 1, by simp [print] at hf; omega⟩
    obtain ⟨d, rfl⟩ : ∃ g, d = g + 1 := ⟨d - 1, by simp [depth] at hd; omega⟩
    simp [print, parseValue, skipWs, isWs, reread, rereadMembers]
  | obj ((k, v) :: kvs), hp, hd, hf, _ =>
    simp only [RustNumbers, RustNumbersMembers] at hp
    simp only [print, List.length_cons, List.length_append, printStr] at hf
    simp only [depth, depthMembers] at hd
    obtain ⟨f, rfl⟩ : ∃ g, f = g + 1 := ⟨f - 1, by omega⟩
    obtain ⟨d, rfl⟩ : ∃ g, d = g + 1 := ⟨d - 1, by omega⟩
    obtain ⟨f, rfl⟩ : ∃ g, f = g + 1 := ⟨f - 1, by omega⟩
    have h1 := parseValue_reread v hp.1 d f (printMembers kvs ++ rest) (by omega) (by omega)
      (fun _ => ends_printMembers kvs rest)
    have h2 := parseMembers_reread kvs hp.2 d (f + 1) rest (by omega) (by omega)
    rw [print, List.cons_append, parseValue, skipWs_cons (by decide)]
    simp only [Char.reduceEq, if_true, if_false]
    have hm : parseMember (f + 1) d (printStr k ++ ':' :: (print v ++ printMembers kvs) ++ rest)
        = (reread v).map fun v => ((k, v), printMembers kvs ++ rest) := by
      have : printStr k ++ ':' :: (print v ++ printMembers kvs) ++ rest
          = '"' :: (k.flatMap escapeChar ++ '"' :: (':' :: (print v ++ (printMembers kvs ++ rest)))) := by
        simp [printStr]
      rw [this, parseMember, skipWs_cons (by decide)]
      simp only [parseStr_printed]
      rw [skipWs_cons (by decide)]
      simp only [h1, Option.map_map]; rfl
    rw [hm]
    have hs : ∀ t, skipWs (printStr k ++ t) = '"' :: (k.flatMap escapeChar ++ '"' :: t) := by
      intro t
      simp [printStr, skipWs, isWs]
    rw [List.append_assoc, hs]
    simp only [reread, rereadMembers]
    cases reread v with
    | none => rfl
    | some y =>
      simp only [Option.map_some, Option.bind_some]
      rw [h2]
      cases rereadMembers kvs <;> rfl
theorem parseElems_reread (xs : List Json) (hp : RustNumbersList xs) (d f : Nat) (rest : Str)
    (hd : depthList xs ≤ d) (hf : (printElems xs).length ≤ f) :
    parseElems f d (printElems xs ++ rest) = (rereadList xs).map (·, rest) := by
  match xs, hp, hd, hf with
  | [], _, _, hf =>
    obtain ⟨f, rfl⟩ : ∃ g, f = g + 1 := ⟨f - 1, by simp [printElems] at hf; omega⟩
    simp [printElems, parseElems, skipWs, isWs, rereadList]
  | x :: xs, hp, hd, hf =>
    simp only [RustNumbersList] at hp
    simp only [printElems, List.length_cons, List.length_append] at hf
    simp only [depthList] at hd
    obtain ⟨f, rfl⟩ : ∃ g, f = g + 1 := ⟨f - 1, by omega⟩
    have h1 := parseValue_reread x hp.1 d f (printElems xs ++ rest) (by omega) (by omega)
      (fun _ => ends_printElems xs rest)
    have h2 := parseElems_reread xs hp.2 d f rest (by omega) (by omega)
    rw [printElems, List.cons_append, parseElems, skipWs_cons (by decide)]
    simp only [List.append_assoc, h1, rereadList]
    cases reread x with
    | none => rfl
    | some y =>
      simp only [Option.map_some, Option.bind_some]
      rw [h2]
      cases rereadList xs <;> rfl
theorem parseMembers_reread (kvs : List (Str × Json)) (hp : RustNumbersMembers kvs) (d f : Nat)
    (rest : Str) (hd : depthMembers kvs ≤ d) (hf : (printMembers kvs).length ≤ f) :
    parseMembers f d (printMembers kvs ++ rest) = (rereadMembers kvs).map (·, rest) := by
  match kvs, hp, hd, hf with
  | [], _, _, hf =>
    obtain ⟨f, rfl⟩ : ∃ g, f = g + 1 := ⟨f - 1, by simp [printMembers] at hf; omega⟩
    simp [printMembers, parseMembers, skipWs, isWs, rereadMembers]
  | (k, v) :: kvs, hp, hd, hf =>
    simp only [RustNumbersMembers] at hp
    simp only [printMembers, List.length_cons, List.length_append, printStr] at hf
    simp only [depthMembers] at hd
    obtain ⟨f, rfl⟩ : ∃ g, f = g + 1 := ⟨f - 1, by omega⟩
    obtain ⟨f, rfl⟩ : ∃ g, f = g + 1 := ⟨f - 1, by omega⟩
    have h1 := parseValue_reread v hp.1 d f (printMembers kvs ++ rest) (by omega) (by omega)
      (fun _ => ends_printMembers kvs rest)
    have h2 := parseMembers_reread kvs hp.2 d (f + 1) rest (by omega) (by omega)
    have hm : parseMember (f + 1) d (printStr k ++ ':' :: (print v ++ printMembers kvs) ++ rest)
        = (reread v).map fun v => ((k, v), printMembers kvs ++ rest) := by
      have : printStr k ++ ':' :: (print v ++ printMembers kvs) ++ rest
          = '"' :: (k.flatMap escapeChar ++ '"' :: (':' :: (print v ++ (printMembers kvs ++ rest)))) := by
        simp [printStr]
      rw [this, parseMember, skipWs_cons (by decide)]
      simp only [parseStr_printed]
      rw [skipWs_cons (by decide)]
      simp only [h1, Option.map_map]; rfl
    rw [printMembers, List.cons_append, parseMembers, skipWs_cons (by decide)]
    simp only [hm, rereadMembers]
    cases reread v with
    | none => rfl
    | some y =>
      simp only [Option.map_some, Option.bind_some]
      rw [h2]
      cases rereadMembers kvs <;> rfl
end

theorem parse_reread (v : Json) (hp : RustNumbers v) (hd : depth v ≤ maxDepth) : parse v.print = reread v := by
  have := parseValue_reread v hp maxDepth (4 * v.print.length + 4) [] hd (by omega)
    (by intro _ c hc; simp at hc)
  rw [List.append_nil] at this
  rw [parse, this]
  cases reread v <;> simp [skipWs]

theorem parse_print (v : Json) (hp : PlainNumbers v) (hd : depth v ≤ maxDepth) :
    parse v.print = some v := by
  have hr := rust_of_plain v hp
  rw [parse_reread v hr hd, (reread_plain v hr).2 hp]

end Json
end Oid4vci
