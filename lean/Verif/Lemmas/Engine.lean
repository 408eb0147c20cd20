import Verif.Model.Engine
import Verif.Lemmas.Base64
import Verif.Lemmas.Utf8
import Verif.Spec.Fault

/-! Decoding block by block, as the engine does it, compared with decoding group by group. -/

namespace Oid4vci.Base64

/-- The characters of bytes. -/
def chars (s : Bytes) : Str := s.map fun b => Char.ofNat b.toNat

theorem u8_congr {x y : Nat} (h : x % 256 = y % 256) : UInt8.ofNat x = UInt8.ofNat y := by
  apply UInt8.toNat_inj.1
  simpa using h

theorem table_lt {a : Alphabet} {b : UInt8} {n : Nat} (h : table a b = some n) : n < 64 := decSym_lt h

/-- The variables after the symbols `pre`. -/
def push (a : Alphabet) (v : Leftover) : Bytes → Leftover
  | [] => v
  | b :: pre => push a { v with bits := v.bits + (table a b).getD 0 * 2 ^ (58 - 6 * v.morsels),
                                morsels := v.morsels + 1, lastSymbol := b } pre

theorem push_padding (a : Alphabet) (v : Leftover) (pre : Bytes) :
    (push a v pre).padding = v.padding ∧ (push a v pre).firstPadding = v.firstPadding ∧
    (push a v pre).morsels = v.morsels + pre.length ∧ (push a v pre).lastSymbol = pre.getLastD v.lastSymbol := by
  induction pre generalizing v with
  | nil => simp [push]
  | cons b pre ih =>
    rw [push]
    obtain ⟨h1, h2, h3, h4⟩ := ih ({ v with
      bits := v.bits + (table a b).getD 0 * 2 ^ (58 - 6 * v.morsels), morsels := v.morsels + 1, lastSymbol := b })
    refine ⟨h1, h2, ?_, ?_⟩
    · rw [h3]; simp only [List.length_cons]; omega
    · rw [h4, List.getLastD_cons]

theorem suffixLoop_push {a : Alphabet} (hp : table a pad = none) (start i : Nat) (v : Leftover) (pre rest : Bytes)
    (hv : v.padding = 0) (h : ∀ b ∈ pre, table a b ≠ none) :
    suffixLoop a start i v (pre ++ rest) = suffixLoop a start (i + pre.length) (push a v pre) rest := by
  induction pre generalizing i v with
  | nil => rfl
  | cons b pre ih =>
    have hb : table a b ≠ none := h b (by simp)
    have hb' : b ≠ pad := fun e => hb (e ▸ hp)
    obtain ⟨m, hm⟩ := Option.ne_none_iff_exists'.1 hb
    rw [List.cons_append, suffixLoop, if_neg hb', if_neg (by omega), hm]
    simp only
    rw [ih _ _ (by exact hv) (fun c hc => h c (by simp [hc])), push, hm]
    simp only [Option.getD_some, List.length_cons]
    congr 1
    omega

theorem suffixLoop_pads {a : Alphabet} (start : Nat) (v : Leftover) (rest : Bytes) (p : Nat)
    (hv : v.padding = p) (hp : 0 < p) (hf : 2 ≤ v.firstPadding % 4) (hq : v.firstPadding % 4 + p ≤ 4) :
    suffixLoop a start (v.firstPadding + p) v rest =
      if rest = List.replicate rest.length pad ∧ v.firstPadding % 4 + (p + rest.length) ≤ 4 then
        .ok { v with padding := p + rest.length }
      else .err (.invalidByte (start + v.firstPadding) pad) := by
  induction rest generalizing v p with
  | nil =>
    rw [if_pos ⟨rfl, by simpa using hq⟩, suffixLoop]
    simp only [List.length_nil, Nat.add_zero, ← hv]
  | cons b rest ih =>
    rw [suffixLoop]
    by_cases hb : b = pad
    · rw [if_pos hb]
      by_cases h4 : v.firstPadding % 4 + p = 4
      · rw [if_pos (by omega), if_pos (by omega), if_neg, hb]
        rintro ⟨-, h⟩
        simp only [List.length_cons] at h
        omega
      · rw [if_neg (by omega), if_neg (by omega)]
        have := ih { v with padding := v.padding + 1 } (p + 1) (by simp [hv]) (by omega) hf (by simp only; omega)
        simp only at this
        rw [show v.firstPadding + p + 1 = v.firstPadding + (p + 1) by omega]
        rw [this]
        have e : (rest = List.replicate rest.length pad ∧ v.firstPadding % 4 + (p + 1 + rest.length) ≤ 4) ↔
            (b :: rest = List.replicate (b :: rest).length pad ∧
              v.firstPadding % 4 + (p + (b :: rest).length) ≤ 4) := by
          simp only [List.length_cons, List.replicate_succ, List.cons.injEq, hb, true_and]
          constructor <;> rintro ⟨h1, h2⟩ <;> exact ⟨h1, by omega⟩
        simp only [e, List.length_cons]
        rw [show p + 1 + rest.length = p + (rest.length + 1) by omega]
    · rw [if_neg hb, if_pos (by omega), if_neg]
      rintro ⟨h, -⟩
      simp only [List.length_cons, List.replicate_succ, List.cons.injEq] at h
      exact hb h.1

/-- Signs at the end, where they may stand. -/
def PadTail (n : Nat) (rest : Bytes) : Prop :=
  rest = List.replicate rest.length pad ∧ (rest.length = 0 ∨ (2 ≤ n % 4 ∧ n % 4 + rest.length ≤ 4))

instance (n : Nat) (rest : Bytes) : Decidable (PadTail n rest) := inferInstanceAs (Decidable (_ ∧ _))

/-- Whether the mode permits `k` signs after `n` symbols. -/
def permitted (mode : PaddingMode) (n k : Nat) : Bool :=
  match mode with
  | .requireNone => k = 0
  | .requireCanonical => (k + n) % 4 = 0

/-- The loop after the symbols. -/
theorem suffixLoop_rest {a : Alphabet} (hp : table a pad = none) (start : Nat) (pre rest : Bytes)
    (h : ∀ b ∈ pre, table a b ≠ none) (hr : ∀ b, rest.head? = some b → table a b = none) :
    suffixLoop a start 0 ⟨0, 0, 0, 0, 0⟩ (pre ++ rest) =
      if PadTail pre.length rest then
        .ok { push a ⟨0, 0, 0, 0, 0⟩ pre with
          padding := rest.length, firstPadding := if rest.length = 0 then 0 else pre.length }
      else
        match rest with
        | b :: _ => .err (.invalidByte (start + pre.length) b)
        | [] => .panic := by
  rw [suffixLoop_push hp _ _ _ _ _ rfl h]
  obtain ⟨h1, h2, h3, h4⟩ := push_padding a ⟨0, 0, 0, 0, 0⟩ pre
  simp only at h1 h2 h3 h4
  generalize push a ⟨0, 0, 0, 0, 0⟩ pre = v at *
  rw [Nat.zero_add]
  cases rest with
  | nil =>
    rw [if_pos ⟨rfl, .inl rfl⟩, suffixLoop]
    obtain ⟨b, m, p, f, l⟩ := v
    simp only at h1 h2
    simp [h1, h2]
  | cons b rest =>
    have hb := hr b rfl
    rw [suffixLoop]
    by_cases e : b = pad
    · rw [if_pos e]
      by_cases h5 : pre.length % 4 < 2
      · rw [if_pos h5, if_neg (by omega), if_neg]
        rintro ⟨-, h | h⟩
        · simp at h
        · omega
      · rw [if_neg h5, h1]
        have := suffixLoop_pads (a := a) start { v with firstPadding := pre.length, padding := 1 } rest 1 rfl
          (by omega) (by simp only; omega) (by simp only; omega)
        simp only at this
        simp only [if_true, Nat.zero_add]
        rw [this]
        have e2 : (rest = List.replicate rest.length pad ∧ pre.length % 4 + (1 + rest.length) ≤ 4) ↔
            PadTail pre.length (b :: rest) := by
          simp only [PadTail, List.length_cons, List.replicate_succ, List.cons.injEq, e, true_and]
          constructor
          · rintro ⟨h1, h2⟩; exact ⟨h1, by omega⟩
          · rintro ⟨h1, h2⟩; exact ⟨h1, by omega⟩
        by_cases hc : PadTail pre.length (b :: rest)
        · rw [if_pos hc, if_pos (e2.2 hc)]
          simp only [List.length_cons, Nat.add_comm 1]
          rw [if_neg (by omega)]
        · rw [if_neg hc, if_neg (fun h => hc (e2.1 h)), e]
    · rw [if_neg e, if_neg (by omega), hb]
      simp only
      rw [if_neg]
      rintro ⟨h, -⟩
      simp only [List.length_cons, List.replicate_succ, List.cons.injEq] at h
      exact e h.1

/-- What decoding from the offset `off` gives for symbols `pre` and what follows them. -/
def outcome (a : Alphabet) (mode : PaddingMode) (off : Nat) (pre rest : Bytes) : Res DecodeError Bytes :=
  if PadTail pre.length rest then
    if permitted mode pre.length rest.length then
      match decode a (chars pre) with
      | some b => .ok b
      | none => .err (.invalidLastSymbol (off + pre.length - 1) (pre.getLastD 0))
    else .err .invalidPadding
  else
    match rest with
    | b :: _ => .err (.invalidByte (off + pre.length) b)
    | [] => .panic

theorem paddingOk_eq (mode : PaddingMode) (v : Leftover) : paddingOk mode v = permitted mode v.morsels v.padding := by
  cases mode <;> rfl

/-- The last block: bits and bytes. -/
theorem suffix_bits {a : Alphabet} (start : Nat) (pre : Bytes) (h : ∀ b ∈ pre, table a b ≠ none)
    (hl : pre.length ≤ 8) (h1 : pre.length % 4 ≠ 1) :
    (match readyBytes pre.length with
      | none => Res.panic
      | some n =>
        if (push a ⟨0, 0, 0, 0, 0⟩ pre).bits % 2 ^ (64 - 8 * n) = 0 then
          .ok (beBytes (push a ⟨0, 0, 0, 0, 0⟩ pre).bits n)
        else .err (DecodeError.invalidLastSymbol (start + pre.length - 1) (pre.getLastD 0))) =
    (match decode a (chars pre) with
      | some b => .ok b
      | none => .err (.invalidLastSymbol (start + pre.length - 1) (pre.getLastD 0))) := by
  have hv : ∀ b ∈ pre, ∃ n, table a b = some n ∧ n < 64 := fun b hb => by
    obtain ⟨n, hn⟩ := Option.ne_none_iff_exists'.1 (h b hb)
    exact ⟨n, hn, table_lt hn⟩
  clear h
  match pre, hl, h1, hv with
  | [], _, _, _ => rfl
  | [_], _, h1, _ => simp at h1
  | [b0, b1], _, _, hv =>
    obtain ⟨n0, e0, l0⟩ := hv b0 (by simp)
    obtain ⟨n1, e1, l1⟩ := hv b1 (by simp)
    have d0 := e0; have d1 := e1
    rw [table] at d0 d1
    simp only [push, chars, decode, List.map, d0, d1, e0, e1, Option.getD_some, List.length_cons, List.length_nil,
      readyBytes, beBytes, Option.bind_eq_bind, Option.bind_some]
    by_cases hz : n1 % 16 = 0
    · rw [if_pos hz, if_pos (by omega)]
      simp only [List.nil_append, Res.ok.injEq, List.cons.injEq, and_true]
      exact u8_congr (by omega)
    · rw [if_neg hz, if_neg (by omega)]
  | [b0, b1, b2], _, _, hv =>
    obtain ⟨n0, e0, l0⟩ := hv b0 (by simp)
    obtain ⟨n1, e1, l1⟩ := hv b1 (by simp)
    obtain ⟨n2, e2, l2⟩ := hv b2 (by simp)
    have d0 := e0; have d1 := e1; have d2 := e2
    rw [table] at d0 d1 d2
    simp only [push, chars, decode, List.map, d0, d1, d2, e0, e1, e2, Option.getD_some, List.length_cons,
      List.length_nil, readyBytes, beBytes, Option.bind_eq_bind, Option.bind_some]
    by_cases hz : n2 % 4 = 0
    · rw [if_pos hz, if_pos (by omega)]
      simp only [List.nil_append, List.cons_append, Res.ok.injEq, List.cons.injEq, and_true]
      exact ⟨u8_congr (by omega), u8_congr (by omega)⟩
    · rw [if_neg hz, if_neg (by omega)]
  | [b0, b1, b2, b3], _, _, hv =>
    obtain ⟨n0, e0, l0⟩ := hv b0 (by simp)
    obtain ⟨n1, e1, l1⟩ := hv b1 (by simp)
    obtain ⟨n2, e2, l2⟩ := hv b2 (by simp)
    obtain ⟨n3, e3, l3⟩ := hv b3 (by simp)
    have d0 := e0; have d1 := e1; have d2 := e2; have d3 := e3
    rw [table] at d0 d1 d2 d3
    simp only [push, chars, decode, List.map, d0, d1, d2, d3, e0, e1, e2, e3, Option.getD_some, List.length_cons,
      List.length_nil, readyBytes, beBytes, Option.bind_eq_bind, Option.bind_some]
    rw [if_pos (by omega)]
    simp only [List.nil_append, List.cons_append, Res.ok.injEq, List.cons.injEq, and_true]
    exact ⟨u8_congr (by omega), u8_congr (by omega), u8_congr (by omega)⟩
  | [_, _, _, _, _], _, h1, _ => simp at h1
  | [b0, b1, b2, b3, b4, b5], _, _, hv =>
    obtain ⟨n0, e0, l0⟩ := hv b0 (by simp)
    obtain ⟨n1, e1, l1⟩ := hv b1 (by simp)
    obtain ⟨n2, e2, l2⟩ := hv b2 (by simp)
    obtain ⟨n3, e3, l3⟩ := hv b3 (by simp)
    obtain ⟨n4, e4, l4⟩ := hv b4 (by simp)
    obtain ⟨n5, e5, l5⟩ := hv b5 (by simp)
    have d0 := e0; have d1 := e1; have d2 := e2; have d3 := e3; have d4 := e4; have d5 := e5
    rw [table] at d0 d1 d2 d3 d4 d5
    simp only [push, chars, decode, List.map, d0, d1, d2, d3, d4, d5, e0, e1, e2, e3, e4, e5, Option.getD_some,
      List.length_cons, List.length_nil, readyBytes, beBytes, Option.bind_eq_bind, Option.bind_some]
    by_cases hz : n5 % 16 = 0
    · rw [if_pos hz, if_pos (by omega)]
      simp only [List.nil_append, List.cons_append, Option.bind_some, Res.ok.injEq, List.cons.injEq, and_true]
      exact ⟨u8_congr (by omega), u8_congr (by omega), u8_congr (by omega), u8_congr (by omega)⟩
    · rw [if_neg hz, if_neg (by omega)]
      rfl
  | [b0, b1, b2, b3, b4, b5, b6], _, _, hv =>
    obtain ⟨n0, e0, l0⟩ := hv b0 (by simp)
    obtain ⟨n1, e1, l1⟩ := hv b1 (by simp)
    obtain ⟨n2, e2, l2⟩ := hv b2 (by simp)
    obtain ⟨n3, e3, l3⟩ := hv b3 (by simp)
    obtain ⟨n4, e4, l4⟩ := hv b4 (by simp)
    obtain ⟨n5, e5, l5⟩ := hv b5 (by simp)
    obtain ⟨n6, e6, l6⟩ := hv b6 (by simp)
    have d0 := e0; have d1 := e1; have d2 := e2; have d3 := e3; have d4 := e4; have d5 := e5; have d6 := e6
    rw [table] at d0 d1 d2 d3 d4 d5 d6
    simp only [push, chars, decode, List.map, d0, d1, d2, d3, d4, d5, d6, e0, e1, e2, e3, e4, e5, e6,
      Option.getD_some, List.length_cons, List.length_nil, readyBytes, beBytes, Option.bind_eq_bind,
      Option.bind_some]
    by_cases hz : n6 % 4 = 0
    · rw [if_pos hz, if_pos (by omega)]
      simp only [List.nil_append, List.cons_append, Option.bind_some, Res.ok.injEq, List.cons.injEq, and_true]
      exact ⟨u8_congr (by omega), u8_congr (by omega), u8_congr (by omega), u8_congr (by omega),
        u8_congr (by omega)⟩
    · rw [if_neg hz, if_neg (by omega)]
      rfl
  | [b0, b1, b2, b3, b4, b5, b6, b7], _, _, hv =>
    obtain ⟨n0, e0, l0⟩ := hv b0 (by simp)
    obtain ⟨n1, e1, l1⟩ := hv b1 (by simp)
    obtain ⟨n2, e2, l2⟩ := hv b2 (by simp)
    obtain ⟨n3, e3, l3⟩ := hv b3 (by simp)
    obtain ⟨n4, e4, l4⟩ := hv b4 (by simp)
    obtain ⟨n5, e5, l5⟩ := hv b5 (by simp)
    obtain ⟨n6, e6, l6⟩ := hv b6 (by simp)
    obtain ⟨n7, e7, l7⟩ := hv b7 (by simp)
    have d0 := e0; have d1 := e1; have d2 := e2; have d3 := e3
    have d4 := e4; have d5 := e5; have d6 := e6; have d7 := e7
    rw [table] at d0 d1 d2 d3 d4 d5 d6 d7
    simp only [push, chars, decode, List.map, d0, d1, d2, d3, d4, d5, d6, d7, e0, e1, e2, e3, e4, e5, e6, e7,
      Option.getD_some, List.length_cons, List.length_nil, readyBytes, beBytes, Option.bind_eq_bind,
      Option.bind_some]
    rw [if_pos (by omega)]
    simp only [List.nil_append, List.cons_append, Res.ok.injEq, List.cons.injEq, and_true]
    exact ⟨u8_congr (by omega), u8_congr (by omega), u8_congr (by omega), u8_congr (by omega),
      u8_congr (by omega), u8_congr (by omega)⟩
  | _ :: _ :: _ :: _ :: _ :: _ :: _ :: _ :: _ :: _, hl, _, _ => simp at hl

/-- The last block. -/
theorem suffix_eq {a : Alphabet} (hp : table a pad = none) (mode : PaddingMode) (start : Nat) (pre rest : Bytes)
    (h : ∀ b ∈ pre, table a b ≠ none) (hr : ∀ b, rest.head? = some b → table a b = none)
    (hl : (pre ++ rest).length ≤ 8) (h1 : (pre ++ rest).length % 4 ≠ 1) :
    suffix a mode start (pre ++ rest) = outcome a mode start pre rest := by
  rw [suffix, suffixLoop_rest hp start pre rest h hr]
  unfold outcome
  rw [List.length_append] at hl h1
  by_cases hc : PadTail pre.length rest
  · rw [if_pos hc, if_pos hc]
    simp only
    rw [paddingOk_eq]
    obtain ⟨-, -, h3, h4⟩ := push_padding a ⟨0, 0, 0, 0, 0⟩ pre
    simp only [Nat.zero_add] at h3 h4
    simp only [h3, h4]
    by_cases hm : permitted mode pre.length rest.length
    · rw [if_pos hm, if_pos hm]
      obtain ⟨-, h5⟩ := hc
      exact suffix_bits start pre h (by omega) (by omega)
    · rw [if_neg hm, if_neg hm]
  · rw [if_neg hc, if_neg hc]
    cases rest with
    | nil => exact absurd ⟨rfl, .inl rfl⟩ hc
    | cons b rest => rfl

theorem chunkBits_err {a : Alphabet} (off k v : Nat) (pre : Bytes) (b : UInt8) (more : Bytes)
    (h : ∀ b ∈ pre, table a b ≠ none) (hb : table a b = none) :
    chunkBits a off k v (pre ++ b :: more) = .err (.invalidByte (off + (k + pre.length)) b) := by
  induction pre generalizing k v with
  | nil => rw [List.nil_append, chunkBits, hb]; rfl
  | cons c pre ih =>
    obtain ⟨m, hm⟩ := Option.ne_none_iff_exists'.1 (h c (by simp))
    rw [List.cons_append, chunkBits, hm]
    simp only
    rw [ih _ _ (fun d hd => h d (by simp [hd]))]
    simp only [List.length_cons]
    congr 2
    omega

/-- A block of eight symbols is two groups. -/
theorem chunk_ok {a : Alphabet} (off : Nat) (b0 b1 b2 b3 b4 b5 b6 b7 : UInt8)
    (h : ∀ b ∈ [b0, b1, b2, b3, b4, b5, b6, b7], table a b ≠ none) :
    ∃ c, chunk a off [b0, b1, b2, b3, b4, b5, b6, b7] = .ok c ∧
      ∀ s, decode a (chars (b0 :: b1 :: b2 :: b3 :: b4 :: b5 :: b6 :: b7 :: s)) =
        (decode a (chars s)).map (c ++ ·) := by
  have hv : ∀ b ∈ [b0, b1, b2, b3, b4, b5, b6, b7], ∃ n, table a b = some n ∧ n < 64 := fun b hb => by
    obtain ⟨n, hn⟩ := Option.ne_none_iff_exists'.1 (h b hb)
    exact ⟨n, hn, table_lt hn⟩
  obtain ⟨n0, e0, l0⟩ := hv b0 (by simp)
  obtain ⟨n1, e1, l1⟩ := hv b1 (by simp)
  obtain ⟨n2, e2, l2⟩ := hv b2 (by simp)
  obtain ⟨n3, e3, l3⟩ := hv b3 (by simp)
  obtain ⟨n4, e4, l4⟩ := hv b4 (by simp)
  obtain ⟨n5, e5, l5⟩ := hv b5 (by simp)
  obtain ⟨n6, e6, l6⟩ := hv b6 (by simp)
  obtain ⟨n7, e7, l7⟩ := hv b7 (by simp)
  have d0 := e0; have d1 := e1; have d2 := e2; have d3 := e3
  have d4 := e4; have d5 := e5; have d6 := e6; have d7 := e7
  rw [table] at d0 d1 d2 d3 d4 d5 d6 d7
  refine ⟨_, by simp only [chunk, chunkBits, e0, e1, e2, e3, e4, e5, e6, e7]; rfl, fun s => ?_⟩
  simp only [chars, decode, List.map, d0, d1, d2, d3, d4, d5, d6, d7, Option.bind_eq_bind, Option.bind_some]
  cases decode a (List.map (fun b => Char.ofNat b.toNat) s) with
  | none => rfl
  | some r =>
    simp only [Option.bind_some, Option.map_some, beBytes, List.nil_append, List.cons_append, Option.some.injEq,
      List.cons.injEq, and_true]
    exact ⟨u8_congr (by omega), u8_congr (by omega), u8_congr (by omega), u8_congr (by omega),
      u8_congr (by omega), u8_congr (by omega)⟩

/-- All blocks. -/
theorem blocks_eq {a : Alphabet} (hp : table a pad = none) (mode : PaddingMode) (off : Nat) (s : Bytes)
    (pre rest : Bytes) (hs : s = pre ++ rest)
    (h : ∀ b ∈ pre, table a b ≠ none) (hr : ∀ b, rest.head? = some b → table a b = none)
    (h1 : s.length % 4 ≠ 1) : blocks a mode off s = outcome a mode off pre rest := by
  induction hn : s.length using Nat.strongRecOn generalizing off s pre with
  | _ n ihn =>
  match s, hn with
  | b0 :: b1 :: b2 :: b3 :: b4 :: b5 :: b6 :: b7 :: b8 :: tail, hn =>
    have ih : ∀ pre, b8 :: tail = pre ++ rest → (∀ b ∈ pre, table a b ≠ none) → (b8 :: tail).length % 4 ≠ 1 →
        blocks a mode (off + 8) (b8 :: tail) = outcome a mode (off + 8) pre rest := fun pre e1 e2 e3 =>
      ihn _ (by simp only [List.length_cons] at hn ⊢; omega) (off + 8) (b8 :: tail) pre e1 e2 e3 rfl
    rw [blocks]
    by_cases hl : 8 ≤ pre.length
    · match pre, hl with
      | c0 :: c1 :: c2 :: c3 :: c4 :: c5 :: c6 :: c7 :: pre, _ =>
        simp only [List.cons_append, List.cons.injEq] at hs
        obtain ⟨rfl, rfl, rfl, rfl, rfl, rfl, rfl, rfl, hs⟩ := hs
        obtain ⟨c, hc, hd⟩ := chunk_ok (a := a) off b0 b1 b2 b3 b4 b5 b6 b7
          (fun b hb => h b (by rw [show b0 :: b1 :: b2 :: b3 :: b4 :: b5 :: b6 :: b7 :: pre =
            [b0, b1, b2, b3, b4, b5, b6, b7] ++ pre from rfl]; exact List.mem_append_left _ hb))
        rw [hc]
        simp only
        rw [ih pre hs (fun b hb => h b (by simp [hb])) (by simp only [List.length_cons] at h1 ⊢; omega)]
        simp only [outcome, List.length_cons]
        have e1 : PadTail (pre.length + 1 + 1 + 1 + 1 + 1 + 1 + 1 + 1) rest ↔ PadTail pre.length rest := by
          simp only [PadTail]
          rw [show (pre.length + 1 + 1 + 1 + 1 + 1 + 1 + 1 + 1) % 4 = pre.length % 4 by omega]
        have e2 : permitted mode (pre.length + 1 + 1 + 1 + 1 + 1 + 1 + 1 + 1) rest.length =
            permitted mode pre.length rest.length := by
          cases mode with
          | requireNone => rfl
          | requireCanonical =>
            simp only [permitted]
            rw [show (rest.length + (pre.length + 1 + 1 + 1 + 1 + 1 + 1 + 1 + 1)) % 4 =
              (rest.length + pre.length) % 4 by omega]
        by_cases hc : PadTail pre.length rest
        · rw [if_pos hc, if_pos (e1.2 hc), e2]
          by_cases hm : permitted mode pre.length rest.length
          · rw [if_pos hm, if_pos hm, hd]
            cases hdec : decode a (chars pre) with
            | some r => rfl
            | none =>
              simp only [Option.map_none]
              cases pre with
              | nil => simp [chars, decode] at hdec
              | cons d pre =>
                simp only [List.length_cons, List.getLastD_cons]
                congr 2
                omega
          · rw [if_neg hm, if_neg hm]
        · rw [if_neg hc, if_neg (fun h => hc (e1.1 h))]
          cases rest with
          | nil => exact absurd ⟨rfl, .inl rfl⟩ hc
          | cons b rest =>
            simp only
            congr 2
            omega
    · have hlen := congrArg List.length hs
      simp only [List.length_cons, List.length_append] at hlen
      cases rest with
      | nil => simp only [List.length_nil] at hlen; omega
      | cons b rest =>
        have hb := hr b rfl
        have hsplit : [b0, b1, b2, b3, b4, b5, b6, b7] = pre ++ b :: rest.take (7 - pre.length) := by
          have := congrArg (List.take 8) hs
          rw [List.take_append, List.take_of_length_le (l := pre) (by omega)] at this
          simp only [List.take_succ_cons, List.take_zero] at this
          rw [this, show 8 - pre.length = (7 - pre.length) + 1 by omega, List.take_succ_cons]
        rw [hsplit, chunk, chunkBits_err off 0 0 pre b _ h hb]
        unfold outcome
        rw [if_neg]
        · simp
        · rintro ⟨-, h | h⟩
          · simp at h
          · simp only [List.length_cons] at h hlen
            omega
  | [], _ | [_], _ | [_, _], _ | [_, _, _], _ | [_, _, _, _], _ | [_, _, _, _, _], _
  | [_, _, _, _, _, _], _ | [_, _, _, _, _, _, _], _ | [_, _, _, _, _, _, _, _], _ =>
    rw [blocks, hs]
    · exact suffix_eq hp mode off pre rest h hr (by rw [← hs]; simp) (by rw [← hs]; exact h1)
    · simp

open Spec (symbol IsSymbol equals InPlace Permitted TrailingBits DecodeFault)

/-- Symbols decode, except for bits left over in the last one. -/
theorem decode_none_iff {a : Alphabet} (pre : Bytes) (b : UInt8) (n : Nat) (h : ∀ c ∈ pre, table a c ≠ none)
    (hb : table a b = some n) (h1 : (pre.length + 1) % 4 ≠ 1) :
    decode a (chars (pre ++ [b])) = none ↔ TrailingBits (pre.length + 1) n := by
  induction hn : pre.length using Nat.strongRecOn generalizing pre with
  | _ m ih =>
  have db := hb
  rw [table] at db
  match pre, hn with
  | [], _ => simp at h1
  | [c0], hn =>
    obtain ⟨n0, e0⟩ := Option.ne_none_iff_exists'.1 (h c0 (by simp))
    rw [table] at e0
    subst hn
    simp [chars, decode, e0, db, TrailingBits]
  | [c0, c1], hn =>
    obtain ⟨n0, e0⟩ := Option.ne_none_iff_exists'.1 (h c0 (by simp))
    obtain ⟨n1, e1⟩ := Option.ne_none_iff_exists'.1 (h c1 (by simp))
    rw [table] at e0 e1
    subst hn
    simp [chars, decode, e0, e1, db, TrailingBits]
  | [c0, c1, c2], hn =>
    obtain ⟨n0, e0⟩ := Option.ne_none_iff_exists'.1 (h c0 (by simp))
    obtain ⟨n1, e1⟩ := Option.ne_none_iff_exists'.1 (h c1 (by simp))
    obtain ⟨n2, e2⟩ := Option.ne_none_iff_exists'.1 (h c2 (by simp))
    rw [table] at e0 e1 e2
    subst hn
    simp [chars, decode, e0, e1, e2, db, TrailingBits]
  | c0 :: c1 :: c2 :: c3 :: pre, hn =>
    obtain ⟨n0, e0⟩ := Option.ne_none_iff_exists'.1 (h c0 (by simp))
    obtain ⟨n1, e1⟩ := Option.ne_none_iff_exists'.1 (h c1 (by simp))
    obtain ⟨n2, e2⟩ := Option.ne_none_iff_exists'.1 (h c2 (by simp))
    obtain ⟨n3, e3⟩ := Option.ne_none_iff_exists'.1 (h c3 (by simp))
    rw [table] at e0 e1 e2 e3
    simp only [List.length_cons] at hn h1
    have := ih pre.length (by omega) pre (fun c hc => h c (by simp [hc])) (by omega) rfl
    have e : TrailingBits (m + 1) n ↔ TrailingBits (pre.length + 1) n := by
      unfold TrailingBits
      rw [show (m + 1) % 4 = (pre.length + 1) % 4 by omega]
    rw [e, ← this]
    simp only [chars, List.cons_append, List.map_cons, decode, e0, e1, e2, e3, Option.bind_eq_bind, Option.bind_some]
    cases decode a (List.map (fun b => Char.ofNat b.toNat) (pre ++ [b])) <;> simp

/-- The engine reads the bytes of an alphabet, without the sign `=`. -/
structure Reads (a : Alphabet) (alphabet : Str) : Prop where
  table_iff : ∀ b n, table a b = some n ↔ ∃ d : Fin 64, d.1 = n ∧ b = symbol alphabet d
  pad : table a pad = none

theorem Reads.isSymbol {a : Alphabet} {al : Str} (r : Reads a al) (b : UInt8) :
    IsSymbol al b ↔ table a b ≠ none := by
  rw [Option.ne_none_iff_exists']
  constructor
  · rintro ⟨d, rfl⟩; exact ⟨d.1, (r.table_iff _ _).2 ⟨d, rfl, rfl⟩⟩
  · rintro ⟨n, hn⟩
    obtain ⟨d, -, rfl⟩ := (r.table_iff _ _).1 hn
    exact ⟨d, rfl⟩

theorem Reads.not_isSymbol {a : Alphabet} {al : Str} (r : Reads a al) (b : UInt8) :
    ¬ IsSymbol al b ↔ table a b = none := by
  rw [r.isSymbol]; simp

/-- The mode of a variant. -/
def modeOf : Bool → PaddingMode
  | false => .requireNone
  | true => .requireCanonical

theorem permitted_iff (p : Bool) (n k : Nat) : permitted (modeOf p) n k = true ↔ Permitted p n k := by
  cases p
  · simp [permitted, modeOf, Permitted]
  · simp [permitted, modeOf, Permitted, Nat.add_comm]

theorem padTail_iff (n : Nat) (rest : Bytes) :
    PadTail n rest ↔ ∃ k, rest = List.replicate k equals ∧ InPlace n k := by
  constructor
  · rintro ⟨h1, h2⟩; exact ⟨rest.length, h1, h2⟩
  · rintro ⟨k, rfl, h⟩
    refine ⟨by rw [List.length_replicate]; rfl, ?_⟩
    rw [List.length_replicate]; exact h

/-- Symbols first, then what begins with no symbol. -/
theorem exists_split (a : Alphabet) (s : Bytes) : ∃ pre rest, s = pre ++ rest ∧ (∀ b ∈ pre, table a b ≠ none) ∧
    ∀ b, rest.head? = some b → table a b = none := by
  refine ⟨s.takeWhile (fun b => (table a b).isSome), s.dropWhile (fun b => (table a b).isSome),
    (List.takeWhile_append_dropWhile).symm, ?_, ?_⟩
  · intro b hb
    have := List.all_eq_true.1 (List.all_takeWhile (p := fun b => (table a b).isSome) (l := s)) b hb
    rw [← Option.isSome_iff_ne_none]; exact this
  · intro b hb
    have := List.head?_dropWhile_not (fun b => (table a b).isSome) s
    rw [hb] at this
    simpa using this

theorem engine_eq {a : Alphabet} (hp : table a pad = none) (mode : PaddingMode) (pre rest : Bytes)
    (h : ∀ b ∈ pre, table a b ≠ none) (hr : ∀ b, rest.head? = some b → table a b = none)
    (h1 : (pre ++ rest).length % 4 ≠ 1) : engine a mode (pre ++ rest) = outcome a mode 0 pre rest := by
  rw [engine, if_neg h1, blocks_eq hp mode 0 _ pre rest rfl h hr h1]

theorem head_replicate_equals {a : Alphabet} {al : Str} (r : Reads a al) (k : Nat) (b : UInt8)
    (h : (List.replicate k equals).head? = some b) : table a b = none := by
  cases k with
  | zero => cases h
  | succ k =>
    simp only [List.replicate_succ, List.head?_cons, Option.some.injEq] at h
    rw [← h]; exact r.pad

/-- The engine's errors. -/
theorem engine_err_iff {a : Alphabet} {al : Str} (r : Reads a al) (p : Bool) (s : Bytes) (e : DecodeError) :
    engine a (modeOf p) s = .err e ↔ DecodeFault al p s e := by
  constructor
  · intro h
    by_cases h1 : s.length % 4 = 1
    · rw [engine, if_pos h1] at h
      cases hl : s.getLast? with
      | none =>
        rw [List.getLast?_eq_none_iff] at hl
        subst hl
        simp at h1
      | some b =>
        rw [hl] at h
        simp only at h
        split at h
        · rename_i hb
          cases h
          exact .lastByte b h1 hl ((r.not_isSymbol b).2 hb.2) hb.1
        · rename_i hb
          cases h
          refine .length h1 fun c hc => ?_
          rw [hl] at hc
          cases hc
          rw [r.isSymbol]
          by_cases he : b = equals
          · exact .inr he
          · exact .inl fun hn => hb ⟨he, hn⟩
    · obtain ⟨pre, rest, rfl, hpre, hrest⟩ := exists_split a s
      rw [engine_eq r.pad _ pre rest hpre hrest h1] at h
      have hsym : ∀ c ∈ pre, IsSymbol al c := fun c hc => (r.isSymbol c).2 (hpre c hc)
      unfold outcome at h
      by_cases hc : PadTail pre.length rest
      · rw [if_pos hc] at h
        obtain ⟨k, rfl, hk⟩ := (padTail_iff _ _).1 hc
        rw [List.length_replicate] at h
        by_cases hm : permitted (modeOf p) pre.length k
        · rw [if_pos hm] at h
          cases hd : decode a (chars pre) with
          | some b => rw [hd] at h; cases h
          | none =>
            rw [hd] at h
            simp only [Nat.zero_add] at h
            rcases List.eq_nil_or_concat pre with rfl | ⟨q, b, rfl⟩
            · simp [chars, decode] at hd
            · rw [List.concat_eq_append] at *
              obtain ⟨d, rfl⟩ := hsym b (by simp)
              have hb : table a (symbol al d) = some d.1 := (r.table_iff _ _).2 ⟨d, rfl, rfl⟩
              simp only [List.length_append, List.length_cons, List.length_nil, Nat.zero_add, List.length_replicate]
                at h1 hk hm h
              rw [decode_none_iff q _ d.1 (fun c hc => hpre c (by simp [hc])) hb
                (by unfold InPlace at hk; omega)] at hd
              rw [List.getLastD_concat] at h
              cases h
              rw [Nat.add_sub_cancel]
              refine .trailing q d k ?_ (by simp) (fun c hc => hsym c (by simp [hc])) hk
                ((permitted_iff _ _ _).1 hm) hd
              simpa [Nat.add_assoc, Nat.add_comm 1 k] using h1
        · rw [if_neg hm] at h
          cases h
          exact .padding pre k h1 rfl hsym hk (fun h => hm ((permitted_iff _ _ _).2 h))
      · rw [if_neg hc] at h
        cases rest with
        | nil => cases h
        | cons b rest =>
          simp only [Nat.zero_add] at h
          cases h
          exact .foreign pre b rest h1 rfl hsym ((r.not_isSymbol b).2 (hrest b rfl))
            (fun h => hc ((padTail_iff _ _).2 h))
  · intro h
    cases h with
    | length h1 h =>
      rw [engine, if_pos h1]
      cases hl : s.getLast? with
      | none => rfl
      | some b =>
        simp only
        rw [if_neg]
        rintro ⟨hb, ht⟩
        rcases h b hl with h | h
        · exact (r.isSymbol b).1 h ht
        · exact hb h
    | lastByte b h1 hl hb hp =>
      rw [engine, if_pos h1, hl]
      simp only
      rw [if_pos ⟨hp, (r.not_isSymbol b).1 hb⟩]
    | foreign pre b rest h1 hs hsym hb hc =>
      subst hs
      rw [engine_eq r.pad _ pre (b :: rest) (fun c hc => (r.isSymbol c).1 (hsym c hc))
        (fun c hc => by cases hc; exact (r.not_isSymbol b).1 hb) h1]
      unfold outcome
      rw [if_neg (fun h => hc ((padTail_iff _ _).1 h)), Nat.zero_add]
    | padding pre k h1 hs hsym hk hm =>
      subst hs
      rw [engine_eq r.pad _ pre _ (fun c hc => (r.isSymbol c).1 (hsym c hc)) (head_replicate_equals r k) h1]
      unfold outcome
      rw [if_pos ((padTail_iff _ _).2 ⟨k, rfl, hk⟩), List.length_replicate,
        if_neg (fun h => hm ((permitted_iff _ _ _).1 h))]
    | trailing pre d k h1 hs hsym hk hm ht =>
      have hb : table a (symbol al d) = some d.1 := (r.table_iff _ _).2 ⟨d, rfl, rfl⟩
      have hs' : s = (pre ++ [symbol al d]) ++ List.replicate k equals := by simp [hs]
      have hpre : ∀ c ∈ pre, table a c ≠ none := fun c hc => (r.isSymbol c).1 (hsym c hc)
      have hall : ∀ c ∈ pre ++ [symbol al d], table a c ≠ none := by
        intro c hc
        rcases List.mem_append.1 hc with hc | hc
        · exact hpre c hc
        · rw [List.mem_singleton.1 hc, hb]; simp
      have hlen : (pre ++ [symbol al d]).length = pre.length + 1 := by simp
      clear hs
      subst hs'
      rw [engine_eq r.pad _ _ _ hall (head_replicate_equals r k) h1]
      unfold outcome
      rw [hlen, if_pos ((padTail_iff _ _).2 ⟨k, rfl, hk⟩), List.length_replicate,
        if_pos ((permitted_iff _ _ _).2 hm), (decode_none_iff pre _ d.1 hpre hb (by
          unfold TrailingBits at ht; omega)).2 ht]
      simp only [Nat.zero_add, Nat.add_sub_cancel, List.getLastD_concat]

/-- What the engine reads. -/
theorem engine_ok_iff {a : Alphabet} {al : Str} (r : Reads a al) (p : Bool) (s b : Bytes) :
    engine a (modeOf p) s = .ok b ↔ ∃ pre k, s = pre ++ List.replicate k equals ∧
      (∀ c ∈ pre, table a c ≠ none) ∧ s.length % 4 ≠ 1 ∧ InPlace pre.length k ∧ Permitted p pre.length k ∧
      decode a (chars pre) = some b := by
  constructor
  · intro h
    by_cases h1 : s.length % 4 = 1
    · rw [engine, if_pos h1] at h
      cases hl : s.getLast? with
      | none => rw [hl] at h; cases h
      | some b =>
        rw [hl] at h
        simp only at h
        split at h <;> cases h
    · obtain ⟨pre, rest, rfl, hpre, hrest⟩ := exists_split a s
      rw [engine_eq r.pad _ pre rest hpre hrest h1] at h
      unfold outcome at h
      by_cases hc : PadTail pre.length rest
      · rw [if_pos hc] at h
        obtain ⟨k, rfl, hk⟩ := (padTail_iff _ _).1 hc
        rw [List.length_replicate] at h
        by_cases hm : permitted (modeOf p) pre.length k
        · rw [if_pos hm] at h
          cases hd : decode a (chars pre) with
          | some b' =>
            rw [hd] at h
            cases h
            exact ⟨pre, k, rfl, hpre, h1, hk, (permitted_iff _ _ _).1 hm, hd⟩
          | none => rw [hd] at h; cases h
        · rw [if_neg hm] at h; cases h
      · rw [if_neg hc] at h
        cases rest <;> cases h
  · rintro ⟨pre, k, rfl, hpre, h1, hk, hm, hd⟩
    rw [engine_eq r.pad _ pre _ hpre (head_replicate_equals r k) h1]
    unfold outcome
    rw [if_pos ((padTail_iff _ _).2 ⟨k, rfl, hk⟩), List.length_replicate, if_pos ((permitted_iff _ _ _).2 hm), hd]

/-- The engine always finishes. -/
theorem engine_total {a : Alphabet} {al : Str} (r : Reads a al) (p : Bool) (s : Bytes) :
    engine a (modeOf p) s ≠ .panic := by
  intro h
  by_cases h1 : s.length % 4 = 1
  · rw [engine, if_pos h1] at h
    cases hl : s.getLast? with
    | none => rw [hl] at h; cases h
    | some b =>
      rw [hl] at h
      simp only at h
      split at h <;> cases h
  · obtain ⟨pre, rest, rfl, hpre, hrest⟩ := exists_split a s
    rw [engine_eq r.pad _ pre rest hpre hrest h1] at h
    unfold outcome at h
    by_cases hc : PadTail pre.length rest
    · rw [if_pos hc] at h
      split at h
      · split at h <;> cases h
      · cases h
    · rw [if_neg hc] at h
      cases rest with
      | nil => exact hc ⟨rfl, .inl rfl⟩
      | cons b rest => cases h

theorem forall_u8 {P : UInt8 → Prop} (h : ∀ n : Fin 256, P (UInt8.ofNat n.1)) (b : UInt8) : P b := by
  have := h ⟨b.toNat, b.toNat_lt⟩
  simpa using this

theorem reads_url : Reads urlSafe Spec.base64urlAlphabet where
  table_iff b n := by
    constructor
    · intro h
      have hn := table_lt h
      have e := encSym_decSym h
      refine ⟨⟨n, hn⟩, rfl, ?_⟩
      have : ∀ d : Fin 64, encSym urlSafe d.1 = Spec.base64urlAlphabet[d.1]! := by decide +kernel
      rw [symbol, ← this ⟨n, hn⟩, e]
      have hb := b.toNat_lt
      rw [charOfNat_toNat (by omega), u8_ofNat_toNat]
    · rintro ⟨d, rfl, rfl⟩
      revert d
      decide +kernel
  pad := by decide +kernel

theorem reads_standard : Reads standard Spec.base64Alphabet where
  table_iff b n := by
    constructor
    · intro h
      have hn := table_lt h
      have e := encSym_decSym h
      refine ⟨⟨n, hn⟩, rfl, ?_⟩
      have : ∀ d : Fin 64, encSym standard d.1 = Spec.base64Alphabet[d.1]! := by decide +kernel
      rw [symbol, ← this ⟨n, hn⟩, e]
      have hb := b.toNat_lt
      rw [charOfNat_toNat (by omega), u8_ofNat_toNat]
    · rintro ⟨d, rfl, rfl⟩
      revert d
      decide +kernel
  pad := by decide +kernel

theorem table_ascii {a : Alphabet} (ha : Good a) {b : UInt8} (h : table a b ≠ none) : b.toNat < 128 := by
  obtain ⟨n, hn⟩ := Option.ne_none_iff_exists'.1 h
  refine Nat.lt_of_not_le fun hc => ?_
  have hb := b.toNat_lt
  rw [table, decSym, charOfNat_toNat (by omega)] at hn
  have h62 : Char.ofNat b.toNat ≠ a.c62 := by
    intro e
    have := congrArg Char.toNat e
    rw [charOfNat_toNat (by omega)] at this
    rcases ha with rfl | rfl <;> simp [urlSafe, standard] at this <;> omega
  have h63 : Char.ofNat b.toNat ≠ a.c63 := by
    intro e
    have := congrArg Char.toNat e
    rw [charOfNat_toNat (by omega)] at this
    rcases ha with rfl | rfl <;> simp [urlSafe, standard] at this <;> omega
  rw [if_neg (by omega), if_neg (by omega), if_neg (by omega), if_neg h62, if_neg h63] at hn
  cases hn

/-- ASCII bytes are the bytes of their characters. -/
theorem utf8Encode_chars (s : Bytes) (h : ∀ b ∈ s, b.toNat < 128) : utf8Encode (chars s) = s := by
  induction s with
  | nil => rfl
  | cons b s ih =>
    have hb := h b (by simp)
    rw [chars, List.map_cons, show Char.ofNat b.toNat :: List.map (fun b => Char.ofNat b.toNat) s =
      [Char.ofNat b.toNat] ++ chars s from rfl, utf8Encode_append, ih (fun c hc => h c (by simp [hc]))]
    have : utf8Encode [Char.ofNat b.toNat] = [b] := by
      simp only [utf8Encode, List.flatMap_cons, List.flatMap_nil, List.append_nil]
      rw [utf8EncodeChar]
      simp only [charOfNat_toNat (show b.toNat < 0xD800 ∨ _ by omega)]
      rw [if_pos (by omega), u8_ofNat_toNat]
    rw [this]; rfl

/-- Decodable characters are the characters of symbols. -/
theorem symbols_of_decode {a : Alphabet} (ha : Good a) {s : Str} {b : Bytes} (h : decode a s = some b) :
    ∃ pre, s = chars pre ∧ ∀ c ∈ pre, table a c ≠ none := by
  have e := encode_decode s b h
  have hm : ∀ c ∈ s, ∃ u : UInt8, c = Char.ofNat u.toNat ∧ table a u ≠ none := by
    intro c hc
    rw [← e] at hc
    obtain ⟨n, hn, rfl⟩ := mem_encode b c hc
    have hd := decSym_encSym ha hn
    have hlt : (encSym a n).toNat < 256 := by
      have : ∀ d : Fin 64, (encSym a d.1).toNat < 256 := by
        rcases ha with rfl | rfl <;> decide +kernel
      exact this ⟨n, hn⟩
    refine ⟨UInt8.ofNat (encSym a n).toNat, ?_, ?_⟩
    · rw [u8_toNat_ofNat hlt, Char.ofNat_toNat]
    · rw [table, u8_toNat_ofNat hlt, Char.ofNat_toNat, hd]; simp
  clear e h
  induction s with
  | nil => exact ⟨[], rfl, by simp⟩
  | cons c s ih =>
    obtain ⟨u, hu, ht⟩ := hm c (by simp)
    obtain ⟨pre, hp, hq⟩ := ih (fun d hd => hm d (by simp [hd]))
    refine ⟨u :: pre, by rw [chars, List.map_cons, ← hu, hp]; rfl, ?_⟩
    intro d hd
    rcases List.mem_cons.1 hd with rfl | hd
    · exact ht
    · exact hq d hd

theorem length_mod_of_decode {a : Alphabet} {s : Str} {b : Bytes} (h : decode a s = some b) : s.length % 4 ≠ 1 := by
  rw [← encode_decode s b h, length_encode]
  omega

/-- The URL-safe engine on the bytes of a string decodes what decoding by groups does. -/
theorem urlEngine_ok_iff (s : Str) (b : Bytes) : urlEngine s = .ok b ↔ base64urlDecode s = some b := by
  rw [urlEngine, show PaddingMode.requireNone = modeOf false from rfl, engine_ok_iff reads_url]
  constructor
  · rintro ⟨pre, k, hs, hpre, -, -, hk, hd⟩
    simp only [Permitted] at hk
    subst hk
    rw [List.replicate_zero, List.append_nil] at hs
    have := utf8Encode_chars pre (fun c hc => table_ascii (.inl rfl) (hpre c hc))
    rw [← this] at hs
    rw [utf8Encode_injective hs]; exact hd
  · intro h
    obtain ⟨pre, rfl, hpre⟩ := symbols_of_decode (.inl rfl) h
    have hl := length_mod_of_decode h
    refine ⟨pre, 0, ?_, hpre, ?_, .inl rfl, rfl, h⟩
    · rw [utf8Encode_chars pre (fun c hc => table_ascii (.inl rfl) (hpre c hc)), List.replicate_zero, List.append_nil]
    · rw [utf8Encode_chars pre (fun c hc => table_ascii (.inl rfl) (hpre c hc))]
      simpa [chars] using hl

theorem chars_replicate (k : Nat) : chars (List.replicate k equals) = List.replicate k '=' := by
  rw [chars, List.map_replicate]; rfl

theorem chars_append (s t : Bytes) : chars (s ++ t) = chars s ++ chars t := List.map_append

/-- The standard engine on the bytes of a string decodes what decoding by groups does. -/
theorem standardEngine_ok_iff (s : Str) (b : Bytes) : standardEngine s = .ok b ↔ base64Decode s = some b := by
  rw [standardEngine, show PaddingMode.requireCanonical = modeOf true from rfl, engine_ok_iff reads_standard]
  have hascii : ∀ (pre : Bytes) (k : Nat), (∀ c ∈ pre, table standard c ≠ none) →
      utf8Encode (chars pre ++ List.replicate k '=') = pre ++ List.replicate k equals := by
    intro pre k hpre
    rw [← chars_replicate, ← chars_append, utf8Encode_chars]
    intro c hc
    rcases List.mem_append.1 hc with hc | hc
    · exact table_ascii (.inr rfl) (hpre c hc)
    · rw [(List.mem_replicate.1 hc).2]; decide
  constructor
  · rintro ⟨pre, k, hs, hpre, -, hk, hm, hd⟩
    rw [← hascii pre k hpre] at hs
    have hs := utf8Encode_injective hs
    subst hs
    have hne : ∀ c ∈ chars pre, c ≠ '=' := by
      intro c hc e
      obtain ⟨u, hu, rfl⟩ := List.mem_map.1 hc
      apply hpre u hu
      rw [table, e]; decide +kernel
    have htw : (chars pre ++ List.replicate k '=').takeWhile (· ≠ '=') = chars pre := by
      rw [List.takeWhile_append_of_pos (by simpa using hne)]
      cases k <;> simp [List.replicate_succ]
    have hcl : (chars pre).length = pre.length := by simp [chars]
    simp only [Permitted] at hm
    unfold InPlace at hk
    unfold base64Decode
    rw [if_neg, htw]
    · simp only
      rw [if_pos, hd]
      rw [hcl]
      congr 2
      omega
    · rw [List.length_append, hcl, List.length_replicate]; omega
  · intro h
    unfold base64Decode at h
    split at h
    · cases h
    rename_i h4
    simp only at h
    split at h
    · rename_i hs
      obtain ⟨pre, hb, hpre⟩ := symbols_of_decode (.inr rfl) h
      have hl := length_mod_of_decode h
      rw [hb] at hs h hl
      have hcl : (chars pre).length = pre.length := by simp [chars]
      rw [hcl] at hs hl
      have e := hascii pre ((4 - pre.length % 4) % 4) hpre
      rw [← hs] at e
      refine ⟨pre, _, e, hpre, ?_, ?_, ?_, h⟩
      · rw [e, List.length_append, List.length_replicate]; omega
      · unfold InPlace; omega
      · simp only [Permitted]; omega
    · cases h

end Oid4vci.Base64
