import Verif.Lemmas.Json

/-! Printed text is self-delimiting, and text nested beyond the limit does not parse. -/

namespace Oid4vci
namespace Json

open Spec

/-- The text of a number. -/
def lexical : Json → Option Lexical
  | num n => some (.num n)
  | float d => some (.float (printFloat d))
  | _ => none

/-- Scanning a printed number. -/
theorem scan_number {v : Json} {l : Lexical} (hv : RustNumbers v) (hl : lexical v = some l) {r : Str} (hr : Ends r) :
    (∃ t, print v = '-' :: t ∧ parseNumber true (t ++ r) = some (l, r)) ∨
    (∃ c t, print v = c :: t ∧ isDigit c = true ∧ parseNumber false (print v ++ r) = some (l, r)) := by
  match v, hv, hl with
  | num (.ofNat n), hv, hl =>
    cases hl
    obtain ⟨c, t, e, hdig⟩ := natDigits_cons n
    refine .inr ⟨c, t, by rw [print, printInt, e], hdig, ?_⟩
    rw [print, printInt]
    exact parseNumber_natDigits false n r hr (by simp [RustNumbers] at hv; simp; omega)
  | num (.negSucc n), hv, hl =>
    cases hl
    refine .inl ⟨_, by rw [print, printInt], ?_⟩
    exact parseNumber_natDigits true (n + 1) r hr (by simp only [RustNumbers] at hv; simp; omega)
  | float d, hv, hl =>
    cases hl
    rw [RustNumbers] at hv
    rw [print]
    exact parseNumber_printFloat hv hr

theorem number_prefix {v w : Json} {l l' : Lexical} (hv : RustNumbers v) (hw : RustNumbers w)
    (hl : lexical v = some l) (hl' : lexical w = some l') {r s : Str} (hr : Ends r) (hs : Ends s)
    (h : print v ++ r = print w ++ s) : v = w ∧ r = s := by
  have key : l = l' ∧ r = s := by
    rcases scan_number hv hl hr with ⟨t, e, p⟩ | ⟨c, t, e, hc, p⟩ <;>
      rcases scan_number hw hl' hs with ⟨t', e', p'⟩ | ⟨c', t', e', hc', p'⟩
    · rw [e, e'] at h
      simp only [List.cons_append, List.cons.injEq, true_and] at h
      rw [h, p'] at p
      simp only [Option.some.injEq, Prod.mk.injEq] at p
      exact ⟨p.1.symm, p.2.symm⟩
    · rw [e, e'] at h
      simp only [List.cons_append, List.cons.injEq] at h
      rw [← h.1] at hc'
      exact absurd hc' (by decide)
    · rw [e, e'] at h
      simp only [List.cons_append, List.cons.injEq] at h
      rw [h.1] at hc
      exact absurd hc (by decide)
    · rw [h, p'] at p
      simp only [Option.some.injEq, Prod.mk.injEq] at p
      exact ⟨p.1.symm, p.2.symm⟩
  refine ⟨?_, key.2⟩
  rw [← key.1] at hl'
  cases v with
  | num n =>
    cases hl
    cases w <;> simp only [lexical, reduceCtorEq, Option.some.injEq, Lexical.num.injEq] at hl'
    rw [hl']
  | float d =>
    cases hl
    cases w <;> simp only [lexical, reduceCtorEq, Option.some.injEq, Lexical.float.injEq] at hl'
    rw [RustNumbers] at hv hw
    rw [shown_injective hv hw (shown_printFloat hv) ((shown_iff hw).2 hl')]
  | _ => cases hl

theorem printStr_prefix {k k' r s : Str} (h : printStr k ++ r = printStr k' ++ s) : k = k' ∧ r = s := by
  have e : ∀ k r, printStr k ++ r = '"' :: (k.flatMap escapeChar ++ '"' :: r) := by intro k r; simp [printStr]
  rw [e, e] at h
  have h := (List.cons.inj h).2
  have p := parseStr_printed k r
  rw [h, parseStr_printed] at p
  simp only [Option.some.injEq, Prod.mk.injEq] at p
  exact ⟨p.1.symm, p.2.symm⟩

/-- The kind of a document, as told by its first character. -/
def kind : Json → Nat
  | null => 0
  | bool true => 1
  | bool false => 2
  | num _ | float _ => 3
  | str _ => 4
  | arr _ => 5
  | obj _ => 6

/-- The kind of text starting with a character. -/
def kindOf (c : Char) : Nat :=
  if c = 'n' then 0 else if c = 't' then 1 else if c = 'f' then 2 else if c = '"' then 4 else if c = '[' then 5
  else if c = '{' then 6 else 3

theorem kindOf_digit {c : Char} (h : isDigit c = true) : kindOf c = 3 := by
  have ne : ∀ x, isDigit x = false → c ≠ x := by rintro x hx rfl; rw [h] at hx; cases hx
  simp [kindOf, ne 'n' (by decide), ne 't' (by decide), ne 'f' (by decide), ne '"' (by decide), ne '[' (by decide),
    ne '{' (by decide)]

theorem print_kind (v : Json) (h : RustNumbers v) : ∃ c t, print v = c :: t ∧ kindOf c = kind v := by
  have number : ∀ {v : Json} {l}, RustNumbers v → lexical v = some l → kind v = 3 →
      ∃ c t, print v = c :: t ∧ kindOf c = kind v := by
    intro v l hv hl hk
    rcases scan_number hv hl (r := []) (by intro c hc; simp at hc) with ⟨t, e, -⟩ | ⟨c, t, e, hc, -⟩
    · exact ⟨_, t, e, by rw [hk]; decide⟩
    · exact ⟨_, t, e, by rw [hk, kindOf_digit hc]⟩
  match v with
  | null => exact ⟨_, _, rfl, by decide⟩
  | bool true => exact ⟨_, _, rfl, by decide⟩
  | bool false => exact ⟨_, _, rfl, by decide⟩
  | num n => exact number h rfl rfl
  | float d => exact number h rfl rfl
  | str s => exact ⟨'"', _, by rw [print, printStr], by simp [kindOf, kind]⟩
  | arr [] => exact ⟨_, _, rfl, by decide⟩
  | arr (x :: xs) => exact ⟨'[', _, by rw [print], by simp [kindOf, kind]⟩
  | obj [] => exact ⟨_, _, rfl, by decide⟩
  | obj ((k, v) :: kvs) => exact ⟨'{', _, by rw [print], by simp [kindOf, kind]⟩

theorem kind_eq {v w : Json} (hv : RustNumbers v) (hw : RustNumbers w) {r s : Str}
    (h : print v ++ r = print w ++ s) : kind v = kind w := by
  obtain ⟨c, t, e, k⟩ := print_kind v hv
  obtain ⟨c', t', e', k'⟩ := print_kind w hw
  rw [e, e'] at h
  simp only [List.cons_append, List.cons.injEq] at h
  rw [← k, ← k', h.1]

theorem kind_arr {w : Json} (h : 5 = kind w) : ∃ xs, w = arr xs := by
  cases w with
  | arr xs => exact ⟨xs, rfl⟩
  | bool b => cases b <;> cases h
  | _ => cases h

theorem kind_obj {w : Json} (h : 6 = kind w) : ∃ kvs, w = obj kvs := by
  cases w with
  | obj xs => exact ⟨xs, rfl⟩
  | bool b => cases b <;> cases h
  | _ => cases h

mutual
/-- Two printed documents followed by something: if the texts agree, so do documents and rests. -/
theorem print_prefix (v w : Json) (r s : Str) (hv : RustNumbers v) (hw : RustNumbers w)
    (hr : (∃ n, v = num n) ∨ (∃ d, v = float d) → Ends r) (hs : (∃ n, w = num n) ∨ (∃ d, w = float d) → Ends s)
    (h : print v ++ r = print w ++ s) : v = w ∧ r = s := by
  have hk := kind_eq hv hw h
  match v, hv, hr, h, hk with
  | null, _, _, h, hk =>
    match w, h, hk with
    | null, h, _ => exact ⟨rfl, List.append_cancel_left h⟩
  | bool true, _, _, h, hk =>
    match w, h, hk with
    | bool true, h, _ => exact ⟨rfl, List.append_cancel_left h⟩
  | bool false, _, _, h, hk =>
    match w, h, hk with
    | bool false, h, _ => exact ⟨rfl, List.append_cancel_left h⟩
  | num n, hv, hr, h, hk =>
    match w, hw, hs, h, hk with
    | num m, hw, hs, h, _ => exact number_prefix hv hw rfl rfl (hr (.inl ⟨_, rfl⟩)) (hs (.inl ⟨_, rfl⟩)) h
    | float m, hw, hs, h, _ => exact number_prefix hv hw rfl rfl (hr (.inl ⟨_, rfl⟩)) (hs (.inr ⟨_, rfl⟩)) h
  | float n, hv, hr, h, hk =>
    match w, hw, hs, h, hk with
    | num m, hw, hs, h, _ => exact number_prefix hv hw rfl rfl (hr (.inr ⟨_, rfl⟩)) (hs (.inl ⟨_, rfl⟩)) h
    | float m, hw, hs, h, _ => exact number_prefix hv hw rfl rfl (hr (.inr ⟨_, rfl⟩)) (hs (.inr ⟨_, rfl⟩)) h
  | str a, _, _, h, hk =>
    match w, h, hk with
    | str b, h, _ =>
      rw [print, print] at h
      obtain ⟨e1, e2⟩ := printStr_prefix h
      exact ⟨by rw [e1], e2⟩
  | arr [], _, _, h, hk =>
    obtain ⟨ys, rfl⟩ := kind_arr hk
    match ys, hw, h with
    | [], _, h => exact ⟨rfl, List.append_cancel_left h⟩
    | y :: ys, hw, h =>
      rw [RustNumbers, RustNumbersList] at hw
      obtain ⟨c, t, e, -, hb, -⟩ := print_cons y hw.1
      rw [print, print, e] at h
      simp at h
      exact absurd h.1.symm hb
  | arr (x :: xs), hv, _, h, hk =>
    rw [RustNumbers, RustNumbersList] at hv
    obtain ⟨ys, rfl⟩ := kind_arr hk
    match ys, hw, h with
    | [], _, h =>
      obtain ⟨c, t, e, -, hb, -⟩ := print_cons x hv.1
      rw [print, print, e] at h
      simp at h
      exact absurd h.1 hb
    | y :: ys, hw, h =>
      rw [RustNumbers, RustNumbersList] at hw
      rw [print, print] at h
      simp only [List.cons_append, List.cons.injEq, true_and, List.append_assoc] at h
      obtain ⟨e1, h1⟩ := print_prefix x y _ _ hv.1 hw.1 (fun _ => ends_printElems xs r)
        (fun _ => ends_printElems ys s) h
      obtain ⟨e2, h2⟩ := printElems_prefix xs ys _ _ hv.2 hw.2 h1
      exact ⟨by rw [e1, e2], h2⟩
  | obj [], _, _, h, hk =>
    obtain ⟨ys, rfl⟩ := kind_obj hk
    match ys, h with
    | [], h => exact ⟨rfl, List.append_cancel_left h⟩
    | (k, y) :: ys, h => simp [print, printStr] at h
  | obj ((k, x) :: xs), hv, _, h, hk =>
    rw [RustNumbers, RustNumbersMembers] at hv
    obtain ⟨ys, rfl⟩ := kind_obj hk
    match ys, hw, h with
    | [], _, h => simp [print, printStr] at h
    | (k', y) :: ys, hw, h =>
      rw [RustNumbers, RustNumbersMembers] at hw
      rw [print, print] at h
      simp only [List.cons_append, List.cons.injEq, true_and, List.append_assoc] at h
      obtain ⟨e0, h0⟩ := printStr_prefix h
      simp only [List.cons.injEq, true_and] at h0
      obtain ⟨e1, h1⟩ := print_prefix x y _ _ hv.1 hw.1 (fun _ => ends_printMembers xs r)
        (fun _ => ends_printMembers ys s) h0
      obtain ⟨e2, h2⟩ := printMembers_prefix xs ys _ _ hv.2 hw.2 h1
      exact ⟨by rw [e0, e1, e2], h2⟩
theorem printElems_prefix (xs ys : List Json) (r s : Str) (hv : RustNumbersList xs) (hw : RustNumbersList ys)
    (h : printElems xs ++ r = printElems ys ++ s) : xs = ys ∧ r = s := by
  match xs, ys, hv, hw, h with
  | [], [], _, _, h => exact ⟨rfl, List.append_cancel_left h⟩
  | [], y :: ys, _, _, h => simp [printElems] at h
  | x :: xs, [], _, _, h => simp [printElems] at h
  | x :: xs, y :: ys, hv, hw, h =>
    rw [RustNumbersList] at hv hw
    rw [printElems, printElems] at h
    simp only [List.cons_append, List.cons.injEq, true_and, List.append_assoc] at h
    obtain ⟨e1, h1⟩ := print_prefix x y _ _ hv.1 hw.1 (fun _ => ends_printElems xs r)
      (fun _ => ends_printElems ys s) h
    obtain ⟨e2, h2⟩ := printElems_prefix xs ys _ _ hv.2 hw.2 h1
    exact ⟨by rw [e1, e2], h2⟩
theorem printMembers_prefix (xs ys : List (Str × Json)) (r s : Str) (hv : RustNumbersMembers xs)
    (hw : RustNumbersMembers ys) (h : printMembers xs ++ r = printMembers ys ++ s) : xs = ys ∧ r = s := by
  match xs, ys, hv, hw, h with
  | [], [], _, _, h => exact ⟨rfl, List.append_cancel_left h⟩
  | [], y :: ys, _, _, h => simp [printMembers] at h
  | x :: xs, [], _, _, h => simp [printMembers] at h
  | (k, x) :: xs, (k', y) :: ys, hv, hw, h =>
    rw [RustNumbersMembers] at hv hw
    rw [printMembers, printMembers] at h
    simp only [List.cons_append, List.cons.injEq, true_and, List.append_assoc] at h
    obtain ⟨e0, h0⟩ := printStr_prefix h
    simp only [List.cons.injEq, true_and] at h0
    obtain ⟨e1, h1⟩ := print_prefix x y _ _ hv.1 hw.1 (fun _ => ends_printMembers xs r)
      (fun _ => ends_printMembers ys s) h0
    obtain ⟨e2, h2⟩ := printMembers_prefix xs ys _ _ hv.2 hw.2 h1
    exact ⟨by rw [e0, e1, e2], h2⟩
end

theorem print_injective (v w : Json) (hv : RustNumbers v) (hw : RustNumbers w)
    (h : print v = print w) : v = w := by
  refine (print_prefix v w [] [] hv hw ?_ ?_ (by rw [h])).1 <;> intro _ c hc <;> simp at hc

mutual
theorem parseValue_deep (v : Json) (hp : RustNumbers v) (d f : Nat) (rest : Str)
    (hd : d < depth v) (hf : (print v).length ≤ f) :
    parseValue f d (print v ++ rest) = none := by
  match v, hp, hd, hf with
  | null, _, hd, _ => simp [depth] at hd
  | bool _, _, hd, _ => simp [depth] at hd
  | num _, _, hd, _ => simp [depth] at hd
  | float _, _, hd, _ => simp [depth] at hd
  | str _, _, hd, _ => simp [depth] at hd
  | arr [], _, hd, hf =>
    obtain ⟨f, rfl⟩ : ∃ g, f = g + 1 := ⟨f - 1, by simp [print] at hf; omega⟩
    obtain rfl : d = 0 := by simp [depth, depthList] at hd; omega
    simp [print, parseValue, skipWs, isWs]
  | arr (x :: xs), hp, hd, hf =>
    simp only [RustNumbers, RustNumbersList] at hp
    simp only [print, List.length_cons, List.length_append] at hf
    simp only [depth, depthList] at hd
    obtain ⟨f, rfl⟩ : ∃ g, f = g + 1 := ⟨f - 1, by omega⟩
    rw [print, List.cons_append, parseValue, skipWs_cons (by decide)]
    simp only [Char.reduceEq, if_true, if_false, List.append_assoc]
    cases d with
    | zero => rfl
    | succ d =>
      obtain ⟨c, t, e, hw, hb, -⟩ := print_cons x hp.1
      have hs : skipWs (print x ++ (printElems xs ++ rest))
          = c :: (t ++ (printElems xs ++ rest)) := by
        rw [e, List.cons_append, skipWs_cons hw]
      simp only [hs]
      split
      · rename_i heq; simp at heq; exact absurd heq.1 hb
      · by_cases hx : d < depth x
        · rw [parseValue_deep x hp.1 d f _ hx (by omega)]
        · rw [parseValue_reread x hp.1 d f _ (by omega) (by omega) fun _ => ends_printElems xs rest]
          cases reread x with
          | none => rfl
          | some y =>
            simp only [Option.map_some]
            rw [parseElems_deep xs hp.2 d f rest (by omega) (by omega)]
            rfl
  | obj [], _, hd, hf =>
    obtain ⟨f, rfl⟩ : ∃ g, f = g + 1 := ⟨f - 1, by simp [print] at hf; omega⟩
    obtain rfl : d = 0 := by simp [depth, depthMembers] at hd; omega
    simp [print, parseValue, skipWs, isWs]
  | obj ((k, v) :: kvs), hp, hd, hf =>
    simp only [RustNumbers, RustNumbersMembers] at hp
    simp only [print, List.length_cons, List.length_append, printStr] at hf
    simp only [depth, depthMembers] at hd
    obtain ⟨f, rfl⟩ : ∃ g, f = g + 1 := ⟨f - 1, by omega⟩
    obtain ⟨f, rfl⟩ : ∃ g, f = g + 1 := ⟨f - 1, by omega⟩
    rw [print, List.cons_append, parseValue, skipWs_cons (by decide)]
    simp only [Char.reduceEq, if_true, if_false]
    cases d with
    | zero => rfl
    | succ d =>
      have hs : ∀ t, skipWs (printStr k ++ t) = '"' :: (k.flatMap escapeChar ++ '"' :: t) := by
        intro t
        simp [printStr, skipWs, isWs]
      have hm : parseMember (f + 1) d (printStr k ++ ':' :: (print v ++ printMembers kvs) ++ rest)
          = (parseValue f d (print v ++ (printMembers kvs ++ rest))).map
              fun p => ((k, p.1), p.2) := by
        have : printStr k ++ ':' :: (print v ++ printMembers kvs) ++ rest
            = '"' :: (k.flatMap escapeChar
                ++ '"' :: (':' :: (print v ++ (printMembers kvs ++ rest)))) := by
          simp [printStr]
        rw [this, parseMember, skipWs_cons (by decide)]
        simp only [parseStr_printed]
        rw [skipWs_cons (by decide)]
        rfl
      simp only [hm]
      rw [List.append_assoc, hs]
      by_cases hx : d < depth v
      · rw [parseValue_deep v hp.1 d f _ hx (by omega)]
        rfl
      · rw [parseValue_reread v hp.1 d f _ (by omega) (by omega) fun _ =>
          ends_printMembers kvs rest]
        cases reread v with
        | none => rfl
        | some y =>
          simp only [Option.map_some]
          rw [parseMembers_deep kvs hp.2 d (f + 1) rest (by omega) (by omega)]
          rfl
theorem parseElems_deep (xs : List Json) (hp : RustNumbersList xs) (d f : Nat) (rest : Str)
    (hd : d < depthList xs) (hf : (printElems xs).length ≤ f) :
    parseElems f d (printElems xs ++ rest) = none := by
  match xs, hp, hd, hf with
  | [], _, hd, hf => simp [depthList] at hd
  | x :: xs, hp, hd, hf =>
    simp only [RustNumbersList] at hp
    simp only [printElems, List.length_cons, List.length_append] at hf
    simp only [depthList] at hd
    obtain ⟨f, rfl⟩ : ∃ g, f = g + 1 := ⟨f - 1, by omega⟩
    rw [printElems, List.cons_append, parseElems, skipWs_cons (by decide)]
    simp only [List.append_assoc]
    by_cases hx : d < depth x
    · rw [parseValue_deep x hp.1 d f _ hx (by omega)]
    · rw [parseValue_reread x hp.1 d f _ (by omega) (by omega) fun _ => ends_printElems xs rest]
      cases reread x with
      | none => rfl
      | some y =>
        simp only [Option.map_some]
        rw [parseElems_deep xs hp.2 d f rest (by omega) (by omega)]
        rfl
theorem parseMembers_deep (kvs : List (Str × Json)) (hp : RustNumbersMembers kvs) (d f : Nat)
    (rest : Str) (hd : d < depthMembers kvs) (hf : (printMembers kvs).length ≤ f) :
    parseMembers f d (printMembers kvs ++ rest) = none := by
  match kvs, hp, hd, hf with
  | [], _, hd, hf => simp [depthMembers] at hd
  | (k, v) :: kvs, hp, hd, hf =>
    simp only [RustNumbersMembers] at hp
    simp only [printMembers, List.length_cons, List.length_append, printStr] at hf
    simp only [depthMembers] at hd
    obtain ⟨f, rfl⟩ : ∃ g, f = g + 1 := ⟨f - 1, by omega⟩
    obtain ⟨f, rfl⟩ : ∃ g, f = g + 1 := ⟨f - 1, by omega⟩
    have hm : parseMember (f + 1) d (printStr k ++ ':' :: (print v ++ printMembers kvs) ++ rest)
        = (parseValue f d (print v ++ (printMembers kvs ++ rest))).map
            fun p => ((k, p.1), p.2) := by
      have : printStr k ++ ':' :: (print v ++ printMembers kvs) ++ rest
          = '"' :: (k.flatMap escapeChar
              ++ '"' :: (':' :: (print v ++ (printMembers kvs ++ rest)))) := by
        simp [printStr]
      rw [this, parseMember, skipWs_cons (by decide)]
      simp only [parseStr_printed]
      rw [skipWs_cons (by decide)]
      rfl
    rw [printMembers, List.cons_append, parseMembers, skipWs_cons (by decide)]
    simp only [hm]
    by_cases hx : d < depth v
    · rw [parseValue_deep v hp.1 d f _ hx (by omega)]
      rfl
    · rw [parseValue_reread v hp.1 d f _ (by omega) (by omega) fun _ => ends_printMembers kvs rest]
      cases reread v with
      | none => rfl
      | some y =>
        simp only [Option.map_some]
        rw [parseMembers_deep kvs hp.2 d (f + 1) rest (by omega) (by omega)]
        rfl
end

theorem parse_deep (v : Json) (hp : RustNumbers v) (hd : maxDepth < depth v) :
    parse v.print = none := by
  have := parseValue_deep v hp maxDepth (4 * v.print.length + 4) [] hd (by omega)
  rw [List.append_nil] at this
  simp [parse, this]

/-- The exact condition under which printed text parses. -/
theorem parse_reread_iff (v w : Json) (hp : RustNumbers v) :
    parse v.print = some w ↔ reread v = some w ∧ depth v ≤ maxDepth := by
  by_cases hd : depth v ≤ maxDepth
  · rw [parse_reread v hp hd]; simp [hd]
  · rw [parse_deep v hp (by omega)]; simp [hd]

theorem parse_print_iff (v w : Json) (hp : PlainNumbers v) :
    parse v.print = some w ↔ w = v ∧ depth v ≤ maxDepth := by
  have hr := rust_of_plain v hp
  rw [parse_reread_iff v w hr, (reread_plain v hr).2 hp]
  simp [eq_comm]

end Json
end Oid4vci
