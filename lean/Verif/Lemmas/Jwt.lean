import Mathlib.Tactic.Tauto
import Verif.Lemmas.Fits
import Verif.Lemmas.JsonDeep
import Verif.Lemmas.Base64
import Verif.Lemmas.Utf8
import Verif.Lemmas.Skip
import Verif.Spec.Url
import Verif.Spec.Jwt
import Verif.Props.Codec

/-! Lemmas about splitting, dots in JSON text, and the compact form of proof JWTs. -/

namespace Oid4vci

open Spec Serde

/-! ### Splitting -/

theorem splitOn_ne_nil (c : Char) (s : Str) : splitOn c s ≠ [] := by
  cases s with
  | nil => simp [splitOn]
  | cons x s =>
    rw [splitOn]
    split
    · simp
    · split <;> simp

theorem splitOn_not_mem {c : Char} {s : Str} (h : c ∉ s) : splitOn c s = [s] := by
  induction s with
  | nil => rfl
  | cons x s ih =>
    simp only [List.mem_cons, not_or] at h
    rw [splitOn, if_neg (Ne.symm h.1), ih h.2]

theorem splitOn_append {c : Char} {s : Str} (t : Str) (h : c ∉ s) :
    splitOn c (s ++ c :: t) = s :: splitOn c t := by
  induction s with
  | nil => simp [splitOn]
  | cons x s ih =>
    simp only [List.mem_cons, not_or] at h
    rw [List.cons_append, splitOn, if_neg (Ne.symm h.1), ih h.2]

/-- Every string is its pieces joined by the separator. -/
theorem joinWith_splitOn (c : Char) (s : Str) : joinWith c (splitOn c s) = s := by
  induction s with
  | nil => rfl
  | cons x s ih =>
    rw [splitOn]
    cases hs : splitOn c s with
    | nil => exact absurd hs (splitOn_ne_nil c s)
    | cons h t =>
      rw [hs] at ih
      split
      · rename_i hx
        rw [joinWith, ih, hx]
        · rfl
        · simp
      · cases t with
        | nil => simp [joinWith] at ih ⊢; exact ih
        | cons h' t => simp [joinWith] at ih ⊢; exact ih

theorem not_mem_splitOn (c : Char) (s : Str) : ∀ p ∈ splitOn c s, c ∉ p := by
  induction s with
  | nil => simp [splitOn]
  | cons x s ih =>
    rw [splitOn]
    cases hs : splitOn c s with
    | nil => exact absurd hs (splitOn_ne_nil c s)
    | cons h t =>
      rw [hs] at ih
      split
      · intro p hp
        rcases List.mem_cons.1 hp with rfl | hp
        · simp
        · exact ih p hp
      · rename_i hx
        intro p hp
        rcases List.mem_cons.1 hp with rfl | hp
        · simp only [List.mem_cons, not_or]
          exact ⟨fun e => hx e.symm, ih h (by simp)⟩
        · exact ih p (by simp [hp])

/-- Splitting at a character is the inverse of joining. -/
theorem splitOn_joinWith (c : Char) (l : List Str) (hl : l ≠ []) (h : ∀ p ∈ l, c ∉ p) :
    splitOn c (joinWith c l) = l := by
  induction l with
  | nil => exact absurd rfl hl
  | cons a l ih =>
    cases l with
    | nil => exact splitOn_not_mem (h a (by simp))
    | cons b l =>
      rw [joinWith]
      · rw [splitOn_append _ (h a (by simp)), ih (by simp) fun p hp => h p (by simp [hp])]
      · simp

theorem length_splitOn (c : Char) (s : Str) : (splitOn c s).length = s.count c + 1 := by
  induction s with
  | nil => rfl
  | cons x s ih =>
    rw [splitOn]
    split
    · rename_i hx; simp [hx, ih]
    · rename_i hx
      cases hs : splitOn c s with
      | nil => exact absurd hs (splitOn_ne_nil c s)
      | cons h t =>
        rw [hs] at ih
        simp only [List.length_cons] at ih ⊢
        rw [List.count_cons_of_ne hx]
        exact ih

theorem splitN_two (c : Char) (s : Str) :
    splitN 2 c s = (cut c s).1 :: (cut c s).2.toList := by
  induction s with
  | nil => rfl
  | cons x s ih =>
    rw [splitN, cut]
    split
    · cases s <;> rfl
    · rw [ih]

/-- The third piece of `splitn(3, c)` is what follows the second separator. -/
theorem splitN_three (c : Char) (s : Str) :
    (splitN 3 c s)[2]? = (cut c s).2.bind fun t => (cut c t).2 := by
  have : splitN 3 c s = (cut c s).1 :: (match (cut c s).2 with
      | none => []
      | some t => splitN 2 c t) := by
    induction s with
    | nil => rfl
    | cons x s ih =>
      rw [splitN, cut]
      split
      · rfl
      · rw [ih]
  rw [this]
  cases (cut c s).2 with
  | none => rfl
  | some t =>
    simp only [splitN_two, Option.bind_some]
    cases (cut c t).2 <;> rfl

theorem cut_append' {c : Char} {s t : Str} (h : c ∉ s) : cut c (s ++ c :: t) = (s, some t) := by
  induction s with
  | nil => simp [cut]
  | cons x s ih =>
    simp only [List.mem_cons, not_or] at h
    rw [List.cons_append, cut, if_neg (Ne.symm h.1), ih h.2]

theorem cut_not_mem' {c : Char} {s : Str} (h : c ∉ s) : cut c s = (s, none) := by
  induction s with
  | nil => rfl
  | cons x s ih =>
    simp only [List.mem_cons, not_or] at h
    rw [cut, if_neg (Ne.symm h.1), ih h.2]

/-- Decomposition of a string at the first occurrence of a character. -/
theorem exists_cut {c : Char} {s : Str} (h : c ∈ s) : ∃ a b, s = a ++ c :: b ∧ c ∉ a := by
  induction s with
  | nil => cases h
  | cons x s ih =>
    by_cases hx : x = c
    · exact ⟨[], s, by simp [hx], by simp⟩
    · obtain ⟨a, b, hs, ha⟩ := ih (by
        rcases List.mem_cons.1 h with h | h
        · exact absurd h.symm hx
        · exact h)
      exact ⟨x :: a, b, by simp [hs], by simp [ha, Ne.symm hx]⟩

/-! ### Dots in JSON text -/

theorem count_escapeChar (c : Char) : (Json.escapeChar c).count '.' = [c].count '.' := by
  unfold Json.escapeChar
  split_ifs with h1 h2 h3 h4 h5 h6 h7 h8
  · rw [h1]; decide
  · rw [h2]; decide
  · have : c = Char.ofNat 8 := by rw [← h3, Char.ofNat_toNat]
    rw [this]; decide
  · have : c = Char.ofNat 12 := by rw [← h4, Char.ofNat_toNat]
    rw [this]; decide
  · rw [h5]; decide
  · rw [h6]; decide
  · rw [h7]; decide
  · have hc : ∀ n : Fin 32, (['\\', 'u', '0', '0', Json.hexLower (n.1 / 16),
        Json.hexLower (n.1 % 16)] : Str).count '.' = [Char.ofNat n.1].count '.' := by decide
    have := hc ⟨c.toNat, h8⟩
    simp only [Char.ofNat_toNat] at this
    exact this
  · rfl

theorem count_flatMap_escape (s : Str) : (s.flatMap Json.escapeChar).count '.' = s.count '.' := by
  induction s with
  | nil => rfl
  | cons c s ih =>
    rw [List.flatMap_cons, List.count_append, ih, count_escapeChar, ← List.count_append]
    rfl

theorem count_printStr (s : Str) : (Json.printStr s).count '.' = s.count '.' := by
  unfold Json.printStr
  rw [List.count_cons_of_ne (by decide), List.count_append, count_flatMap_escape]
  simp

mutual
/-- The number of dots in the strings and keys and floating-point numbers of a document. -/
def dots : Json → Nat
  | .str s => s.count '.'
  | .float d => (Json.printFloat d).count '.'
  | .arr xs => dotsList xs
  | .obj kvs => dotsMembers kvs
  | _ => 0
/-- Elements. -/
def dotsList : List Json → Nat
  | [] => 0
  | x :: xs => dots x + dotsList xs
/-- Members. -/
def dotsMembers : List (Str × Json) → Nat
  | [] => 0
  | (k, v) :: kvs => k.count '.' + dots v + dotsMembers kvs
end

theorem count_natDigits (n : Nat) : (Json.natDigits n).count '.' = 0 := by
  rw [List.count_eq_zero]
  intro hm
  have := (Json.natDigits_facts (n + 1) n (by omega)).1 '.' hm
  revert this; decide

mutual
theorem count_print (v : Json) (hp : PlainNumbers v) : v.print.count '.' = dots v := by
  match v, hp with
  | .null, _ => decide
  | .bool true, _ => decide
  | .bool false, _ => decide
  | .num (.ofNat n), _ => simp [Json.print, Json.printInt, dots, count_natDigits]
  | .num (.negSucc n), _ =>
    simp only [Json.print, Json.printInt, dots]
    rw [List.count_cons_of_ne (by decide), count_natDigits]
  | .float _, _ => simp [Json.print, dots]
  | .str s, _ => simp [Json.print, dots, count_printStr]
  | .arr [], _ => simp [Json.print, dots, dotsList]
  | .arr (x :: xs), hp =>
    simp only [PlainNumbers, PlainNumbersList] at hp
    simp only [Json.print, dots, dotsList]
    rw [List.count_cons_of_ne (by decide), List.count_append, count_print x hp.1,
      count_printElems xs hp.2]
  | .obj [], _ => simp [Json.print, dots, dotsMembers]
  | .obj ((k, v) :: kvs), hp =>
    simp only [PlainNumbers, PlainNumbersMembers] at hp
    simp only [Json.print, dots, dotsMembers]
    rw [List.count_cons_of_ne (by decide), List.count_append, List.count_cons_of_ne (by decide),
      List.count_append, count_print v hp.1, count_printMembers kvs hp.2, count_printStr]
    omega
theorem count_printElems (xs : List Json) (hp : PlainNumbersList xs) :
    (Json.printElems xs).count '.' = dotsList xs := by
  match xs, hp with
  | [], _ => simp [Json.printElems, dotsList]
  | x :: xs, hp =>
    simp only [PlainNumbersList] at hp
    simp only [Json.printElems, dotsList]
    rw [List.count_cons_of_ne (by decide), List.count_append, count_print x hp.1,
      count_printElems xs hp.2]
theorem count_printMembers (kvs : List (Str × Json)) (hp : PlainNumbersMembers kvs) :
    (Json.printMembers kvs).count '.' = dotsMembers kvs := by
  match kvs, hp with
  | [], _ => simp [Json.printMembers, dotsMembers]
  | (k, v) :: kvs, hp =>
    simp only [PlainNumbersMembers] at hp
    simp only [Json.printMembers, dotsMembers]
    rw [List.count_cons_of_ne (by decide), List.count_append, List.count_cons_of_ne (by decide),
      List.count_append, count_print v hp.1, count_printMembers kvs hp.2, count_printStr]
    omega
end

/-! ### The compact form -/

theorem joinWith_eq_dotted (l : List Str) : joinWith '.' l = dotted l := by
  induction l with
  | nil => rfl
  | cons a l ih =>
    cases l with
    | nil => simp [joinWith, dotted, List.intercalate]
    | cons b l =>
      rw [joinWith]
      · rw [ih]; simp [dotted, List.intercalate]
      · simp

theorem splitOn_dotted (l : List Str) (hl : l ≠ []) (h : ∀ p ∈ l, NoDot p) :
    splitOn '.' (dotted l) = l := by
  rw [← joinWith_eq_dotted]; exact splitOn_joinWith '.' l hl h

/-- Segments determine the string and the string determines its segments. -/
theorem dotted_iff {s : Str} {l : List Str} :
    splitOn '.' s = l ↔ l ≠ [] ∧ (∀ p ∈ l, NoDot p) ∧ s = dotted l := by
  constructor
  · rintro rfl
    exact ⟨splitOn_ne_nil _ _, not_mem_splitOn _ _, by rw [← joinWith_eq_dotted, joinWith_splitOn]⟩
  · rintro ⟨h1, h2, rfl⟩
    exact splitOn_dotted l h1 h2

theorem alphabet_ne_dot {c : Char} (h : c ∈ base64urlAlphabet) : c ≠ '.' ∧ c ≠ '{' := by
  revert c; decide

theorem noDot_encode (b : Bytes) : NoDot (base64urlEncode b) := fun h =>
  (alphabet_ne_dot (C44_base64url_bijection.2.2.2 b _ h)).1 rfl

theorem parseSlice_print {j : Json} (h : Fits Json.maxDepth j) :
    Json.parseSlice (utf8Encode j.print) = some j := by
  rw [Json.parseSlice, utf8Decode_encode, Option.bind_some]
  exact (Json.parse_print_iff j j h.1).2 ⟨rfl, h.2⟩

/-- Parsing a compact JWT made from two documents. -/
theorem ProofJwt.fromStr_docs (x : Ext) {hj bj : Json} {h : ProofJwtHeader} {b : ProofJwtBody}
    (rest : List Str) (hr : ∀ p ∈ rest, NoDot p) (fh : Fits Json.maxDepth hj)
    (fb : Fits Json.maxDepth bj) (dh : ProofJwtHeader.de hj = some h)
    (db : ProofJwtBody.de x bj = some b) :
    fromStr x (dotted (base64urlEncode (utf8Encode hj.print)
      :: base64urlEncode (utf8Encode bj.print) :: rest)) = .ok ⟨h, b, rest.head?⟩ := by
  unfold fromStr
  rw [splitOn_dotted _ (by simp)]
  · simp only [C44_base64url_bijection.1, parseSlice_print fh,
      ProofJwtBody.fromSlice_of_parse x (parseSlice_print fb), Option.bind_some, dh, db]
  · intro p hp
    rcases List.mem_cons.1 hp with rfl | hp
    · exact noDot_encode _
    · rcases List.mem_cons.1 hp with rfl | hp
      · exact noDot_encode _
      · exact hr p hp

/-- What `from_str` accepts. -/
theorem ProofJwt.fromStr_eq_ok {x : Ext} {s : Str} {j : ProofJwt} :
    fromStr x s = .ok j ↔ ∃ hs bs rest hb bb, splitOn '.' s = hs :: bs :: rest ∧
      base64urlDecode hs = some hb ∧ base64urlDecode bs = some bb ∧
      (Json.parseSlice hb).bind ProofJwtHeader.de = some j.header ∧
      ProofJwtBody.fromSlice x bb = some j.body ∧
      j.signature = rest.head? := by
  unfold fromStr
  constructor
  · intro h
    split at h
    · cases h
    · cases h
    · rename_i hs bs rest hsp
      simp only at h
      split at h
      · cases h
      rename_i hb hhb
      split at h
      · cases h
      rename_i bb hbb
      split at h
      · cases h
      rename_i hd hhd
      split at h
      · cases h
      rename_i bd hbd
      cases h
      exact ⟨hs, bs, rest, hb, bb, hsp, hhb, hbb, hhd, hbd, rfl⟩
  · rintro ⟨hs, bs, rest, hb, bb, hsp, hhb, hbb, hhd, hbd, hsig⟩
    rw [hsp]
    simp only [hhb, hbb, hhd, hbd, ← hsig]

/-! ### The text form -/

theorem header_fits (h : ProofJwtHeader) : Fits Json.maxDepth h.ser := fits_header 126 h
theorem body_fits (x : Ext) (b : ProofJwtBody) : Fits Json.maxDepth (b.ser x) := fits_body x 126 b

/-- The text of a JWT: header, dot, body, and possibly dot and signature. -/
theorem ProofJwt.toStr_eq (x : Ext) (j : ProofJwt) :
    j.toStr x = j.header.ser.print ++ '.' :: ((j.body.ser x).print
      ++ (match j.signature with
        | some s => '.' :: s
        | none => [])) := by
  unfold toStr
  cases j.signature with
  | none => simp [joinWith]
  | some s => simp [joinWith]

theorem count_zero_iff (s : Str) : s.count '.' = 0 ↔ NoDot s := List.count_eq_zero

theorem alg_dots (a : ProofJwtAlgorithm) : dots a.ser = 0 := by cases a <;> decide

theorem headerDotFree_iff (h : ProofJwtHeader) : HeaderDotFree h ↔ NoDot h.ser.print := by
  rw [← count_zero_iff, count_print _ (header_fits h).1]
  obtain ⟨typ, alg, add⟩ := h
  simp only [HeaderDotFree, ProofJwtHeader.ser]
  cases add with
  | none =>
    simp [dots, dotsMembers, alg_dots, count_zero_iff]
  | some a =>
    cases a <;>
      simp [dots, dotsMembers, alg_dots, count_zero_iff, ProofJwtAdditionalHeader.member]

theorem dotsMembers_append (a b : List (Str × Json)) :
    dotsMembers (a ++ b) = dotsMembers a + dotsMembers b := by
  induction a with
  | nil => simp [dotsMembers]
  | cons p a ih => obtain ⟨k, v⟩ := p; simp only [List.cons_append, dotsMembers, ih]; omega

theorem bodyDotFree_iff (x : Ext) (b : ProofJwtBody) : BodyDotFree x b ↔ NoDot (b.ser x).print := by
  rw [← count_zero_iff, count_print _ (body_fits x b).1]
  obtain ⟨iss, aud, sub, iat, nonce, nbf, exp⟩ := b
  simp only [BodyDotFree, ProofJwtBody.ser, dots, dotsMembers_append]
  cases iss <;> cases sub <;> cases nbf <;> cases exp <;>
    simp [dotsMembers, skipNone, serOpt, dots, serTime, count_zero_iff] <;> tauto

theorem print_obj_head {kvs : List (Str × Json)} :
    ∃ r, (Json.obj kvs).print = '{' :: r := by
  cases kvs with
  | nil => exact ⟨_, rfl⟩
  | cons p kvs => obtain ⟨k, v⟩ := p; simp only [Json.print]; exact ⟨_, rfl⟩

theorem print_members_last (kvs : List (Str × Json)) :
    ∃ r, Json.printMembers kvs = r ++ ['}'] := by
  induction kvs with
  | nil => exact ⟨[], rfl⟩
  | cons p kvs ih =>
    obtain ⟨k, v⟩ := p
    obtain ⟨r, hr⟩ := ih
    exact ⟨',' :: (Json.printStr k ++ ':' :: (v.print ++ r)), by simp [Json.printMembers, hr]⟩

theorem print_obj_last (kvs : List (Str × Json)) : ∃ r, (Json.obj kvs).print = r ++ ['}'] := by
  cases kvs with
  | nil => exact ⟨['{'], rfl⟩
  | cons p kvs =>
    obtain ⟨k, v⟩ := p
    obtain ⟨r, hr⟩ := print_members_last kvs
    exact ⟨'{' :: (Json.printStr k ++ ':' :: (v.print ++ r)), by simp [Json.print, hr]⟩

/-- The text of a JWT starts with a brace. -/
theorem ProofJwt.toStr_head (x : Ext) (j : ProofJwt) : ∃ r, j.toStr x = '{' :: r := by
  obtain ⟨r, hr⟩ : ∃ r, j.header.ser.print = '{' :: r := by
    unfold ProofJwtHeader.ser; exact print_obj_head
  rw [toStr_eq, hr]
  exact ⟨_, rfl⟩

theorem decode_brace (r : Str) : base64urlDecode ('{' :: r) = none := by
  cases h : base64urlDecode ('{' :: r) with
  | none => rfl
  | some b =>
    have := C44_base64url_bijection.2.2.2 b '{'
      (by rw [C44_base64url_bijection.2.1 _ _ h]; simp)
    exact absurd rfl (alphabet_ne_dot this).2

/-- A string that starts with a brace is not a compact JWT. -/
theorem ProofJwt.fromStr_brace (x : Ext) (r : Str) (j : ProofJwt) : fromStr x ('{' :: r) ≠ .ok j := by
  intro h
  obtain ⟨hs, bs, rest, hb, bb, hsp, hhb, -⟩ := fromStr_eq_ok.1 h
  rw [splitOn, if_neg (by decide)] at hsp
  split at hsp
  · simp at hsp
  · injection hsp with h1 _
    rw [← h1, decode_brace] at hhb
    cases hhb

theorem print_obj_inj {v w : Json} {kvs kvs' : List (Str × Json)} {r s : Str} (hv : v = .obj kvs)
    (hw : w = .obj kvs') (fv : PlainNumbers v) (fw : PlainNumbers w)
    (h : v.print ++ r = w.print ++ s) : v = w ∧ r = s :=
  Json.print_prefix v w r s (Json.rust_of_plain v fv) (Json.rust_of_plain w fw) (by rw [hv]; simp) (by rw [hw]; simp) h

end Oid4vci
