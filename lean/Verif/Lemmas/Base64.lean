import Verif.Base.Base64
import Verif.Lemmas.Utf8

/-! base64. -/

namespace Oid4vci
namespace Base64

/-- The alphabets in use. -/
def Good (a : Alphabet) : Prop := a = urlSafe ∨ a = standard

theorem decSym_encSym {a : Alphabet} (ha : Good a) {n : Nat} (h : n < 64) :
    decSym a (encSym a n) = some n := by
  have key : ∀ a, a = urlSafe ∨ a = standard → ∀ n : Fin 64, decSym a (encSym a n.1) = some n.1 := by
    rintro a (rfl | rfl) <;> decide
  exact key a ha ⟨n, h⟩

theorem decSym_lt {a : Alphabet} {c : Char} {n : Nat} (h : decSym a c = some n) : n < 64 := by
  unfold decSym at h
  split at h
  · simp at h; omega
  split at h
  · simp at h; omega
  split at h
  · simp at h; omega
  split at h
  · simp at h; omega
  split at h
  · simp at h; omega
  · cases h

theorem char_eq_of_toNat {c : Char} {n : Nat} (h : c.toNat = n) : Char.ofNat n = c := by
  rw [← h]; exact Char.ofNat_toNat c

theorem encSym_decSym {a : Alphabet} {c : Char} {n : Nat} (h : decSym a c = some n) :
    encSym a n = c := by
  unfold decSym at h
  unfold encSym
  split at h
  · simp at h; rw [if_pos (by omega)]; exact char_eq_of_toNat (by omega)
  split at h
  · simp at h; rw [if_neg (by omega), if_pos (by omega)]; exact char_eq_of_toNat (by omega)
  split at h
  · simp at h
    rw [if_neg (by omega), if_neg (by omega), if_pos (by omega)]; exact char_eq_of_toNat (by omega)
  split at h
  · simp at h; subst h; simp_all
  split at h
  · simp at h; subst h; simp_all
  · cases h

theorem decode_encode {a : Alphabet} (ha : Good a) (b : Bytes) : decode a (encode a b) = some b := by
  induction b using encode.induct with
  | case1 b0 b1 b2 rest ih =>
    have h0 := b0.toNat_lt
    have h1 := b1.toNat_lt
    have h2 := b2.toNat_lt
    simp only [encode, decode, decSym_encSym ha (show b0.toNat / 4 < 64 by omega),
      decSym_encSym ha (show b0.toNat % 4 * 16 + b1.toNat / 16 < 64 by omega),
      decSym_encSym ha (show b1.toNat % 16 * 4 + b2.toNat / 64 < 64 by omega),
      decSym_encSym ha (show b2.toNat % 64 < 64 by omega), ih, Option.bind_eq_bind,
      Option.bind_some]
    have e0 : b0.toNat / 4 * 4 + (b0.toNat % 4 * 16 + b1.toNat / 16) / 16 = b0.toNat := by omega
    have e1 : (b0.toNat % 4 * 16 + b1.toNat / 16) % 16 * 16
        + (b1.toNat % 16 * 4 + b2.toNat / 64) / 4 = b1.toNat := by omega
    have e2 : (b1.toNat % 16 * 4 + b2.toNat / 64) % 4 * 64 + b2.toNat % 64 = b2.toNat := by omega
    rw [e0, e1, e2]; simp
  | case2 b0 b1 =>
    have h0 := b0.toNat_lt
    have h1 := b1.toNat_lt
    simp only [encode, decode, decSym_encSym ha (show b0.toNat / 4 < 64 by omega),
      decSym_encSym ha (show b0.toNat % 4 * 16 + b1.toNat / 16 < 64 by omega),
      decSym_encSym ha (show b1.toNat % 16 * 4 < 64 by omega), Option.bind_eq_bind,
      Option.bind_some]
    rw [if_pos (by omega)]
    have e0 : b0.toNat / 4 * 4 + (b0.toNat % 4 * 16 + b1.toNat / 16) / 16 = b0.toNat := by omega
    have e1 : (b0.toNat % 4 * 16 + b1.toNat / 16) % 16 * 16 + (b1.toNat % 16 * 4) / 4
        = b1.toNat := by omega
    rw [e0, e1]; simp
  | case3 b0 =>
    have h0 := b0.toNat_lt
    simp only [encode, decode, decSym_encSym ha (show b0.toNat / 4 < 64 by omega),
      decSym_encSym ha (show b0.toNat % 4 * 16 < 64 by omega), Option.bind_eq_bind,
      Option.bind_some]
    rw [if_pos (by omega)]
    have e0 : b0.toNat / 4 * 4 + (b0.toNat % 4 * 16) / 16 = b0.toNat := by omega
    rw [e0]; simp
  | case4 => rfl

theorem encode_decode {a : Alphabet} (s : Str) (b : Bytes) (h : decode a s = some b) :
    encode a b = s := by
  induction s using decode.induct generalizing b with
  | case1 c0 c1 c2 c3 rest ih =>
    simp only [decode, Option.bind_eq_bind, Option.bind_eq_some_iff] at h
    obtain ⟨n0, h0, n1, h1, n2, h2, n3, h3, r, hr, he⟩ := h
    cases he
    have l0 := decSym_lt h0
    have l1 := decSym_lt h1
    have l2 := decSym_lt h2
    have l3 := decSym_lt h3
    simp only [encode, u8_toNat_ofNat (show n0 * 4 + n1 / 16 < 256 by omega),
      u8_toNat_ofNat (show n1 % 16 * 16 + n2 / 4 < 256 by omega),
      u8_toNat_ofNat (show n2 % 4 * 64 + n3 < 256 by omega), ih r hr]
    have e0 : (n0 * 4 + n1 / 16) / 4 = n0 := by omega
    have e1 : (n0 * 4 + n1 / 16) % 4 * 16 + (n1 % 16 * 16 + n2 / 4) / 16 = n1 := by omega
    have e2 : (n1 % 16 * 16 + n2 / 4) % 16 * 4 + (n2 % 4 * 64 + n3) / 64 = n2 := by omega
    have e3 : (n2 % 4 * 64 + n3) % 64 = n3 := by omega
    rw [e0, e1, e2, e3, encSym_decSym h0, encSym_decSym h1, encSym_decSym h2, encSym_decSym h3]
  | case2 c0 c1 c2 =>
    simp only [decode, Option.bind_eq_bind, Option.bind_eq_some_iff] at h
    obtain ⟨n0, h0, n1, h1, n2, h2, he⟩ := h
    split at he
    · cases he
      have l0 := decSym_lt h0
      have l1 := decSym_lt h1
      have l2 := decSym_lt h2
      simp only [encode, u8_toNat_ofNat (show n0 * 4 + n1 / 16 < 256 by omega),
        u8_toNat_ofNat (show n1 % 16 * 16 + n2 / 4 < 256 by omega)]
      have e0 : (n0 * 4 + n1 / 16) / 4 = n0 := by omega
      have e1 : (n0 * 4 + n1 / 16) % 4 * 16 + (n1 % 16 * 16 + n2 / 4) / 16 = n1 := by omega
      have e2 : (n1 % 16 * 16 + n2 / 4) % 16 * 4 = n2 := by omega
      rw [e0, e1, e2, encSym_decSym h0, encSym_decSym h1, encSym_decSym h2]
    · cases he
  | case3 c0 c1 =>
    simp only [decode, Option.bind_eq_bind, Option.bind_eq_some_iff] at h
    obtain ⟨n0, h0, n1, h1, he⟩ := h
    split at he
    · cases he
      have l0 := decSym_lt h0
      have l1 := decSym_lt h1
      simp only [encode, u8_toNat_ofNat (show n0 * 4 + n1 / 16 < 256 by omega)]
      have e0 : (n0 * 4 + n1 / 16) / 4 = n0 := by omega
      have e1 : (n0 * 4 + n1 / 16) % 4 * 16 = n1 := by omega
      rw [e0, e1, encSym_decSym h0, encSym_decSym h1]
    · cases he
  | case4 c => simp [decode] at h
  | case5 => simp [decode] at h; subst h; rfl

/-- Every symbol of an encoding is in the alphabet. -/
theorem mem_encode {a : Alphabet} (b : Bytes) : ∀ c ∈ encode a b, ∃ n, n < 64 ∧ c = encSym a n := by
  induction b using encode.induct with
  | case1 b0 b1 b2 rest ih =>
    have h0 := b0.toNat_lt
    have h1 := b1.toNat_lt
    have h2 := b2.toNat_lt
    intro c hc
    simp only [encode, List.mem_cons] at hc
    rcases hc with rfl | rfl | rfl | rfl | hc
    · exact ⟨_, by omega, rfl⟩
    · exact ⟨_, by omega, rfl⟩
    · exact ⟨_, by omega, rfl⟩
    · exact ⟨_, by omega, rfl⟩
    · exact ih c hc
  | case2 b0 b1 =>
    have h0 := b0.toNat_lt
    have h1 := b1.toNat_lt
    intro c hc
    simp only [encode, List.mem_cons, List.not_mem_nil, or_false] at hc
    rcases hc with rfl | rfl | rfl <;> exact ⟨_, by omega, rfl⟩
  | case3 b0 =>
    have h0 := b0.toNat_lt
    intro c hc
    simp only [encode, List.mem_cons, List.not_mem_nil, or_false] at hc
    rcases hc with rfl | rfl <;> exact ⟨_, by omega, rfl⟩
  | case4 => intro c hc; simp [encode] at hc

theorem length_encode {a : Alphabet} (b : Bytes) : (encode a b).length = (b.length * 4 + 2) / 3 := by
  induction b using encode.induct with
  | case1 b0 b1 b2 rest ih => simp only [encode, List.length_cons, ih]; omega
  | case2 b0 b1 => simp [encode]
  | case3 b0 => simp [encode]
  | case4 => simp [encode]

end Base64

end Oid4vci
