import Verif.Base.Utf8

/-! UTF-8 encoding and decoding are inverse to each other. -/

namespace Oid4vci

theorem char_toNat_cases (c : Char) :
    c.toNat < 0xD800 ∨ (0xDFFF < c.toNat ∧ c.toNat < 0x110000) := c.valid

theorem u8_toNat_ofNat {n : Nat} (h : n < 256) : (UInt8.ofNat n).toNat = n := by
  simp [UInt8.toNat_ofNat']; omega

/-- Decoding after one encoded character. -/
theorem utf8Decode_encodeChar (c : Char) (bs : Bytes) :
    utf8Decode (utf8EncodeChar c ++ bs) = (utf8Decode bs).map (c :: ·) := by
  have hv := char_toNat_cases c
  have hc : Char.ofNat c.toNat = c := Char.ofNat_toNat c
  generalize hn : c.toNat = n at *
  simp only [utf8EncodeChar, hn]
  split
  · rename_i h
    simp only [List.cons_append, List.nil_append]
    rw [utf8Decode.eq_def]
    simp only [u8_toNat_ofNat (show n < 256 by omega), if_pos h, hc]
  · split
    · rename_i h1 h2
      simp only [List.cons_append, List.nil_append]
      rw [utf8Decode]
      simp only [isCont, u8_toNat_ofNat (show 0xC0 + n / 64 < 256 by omega),
        u8_toNat_ofNat (show 0x80 + n % 64 < 256 by omega)]
      rw [if_neg (by omega), if_neg (by omega), if_pos (by omega)]
      have e : (192 + n / 64 - 192) * 64 + (128 + n % 64 - 128) = n := by omega
      rw [e, if_pos, hc]
      simp; omega
    · split
      · rename_i h1 h2 h3
        simp only [List.cons_append, List.nil_append]
        rw [utf8Decode]
        simp only [isCont, u8_toNat_ofNat (show 0xE0 + n / 4096 < 256 by omega),
          u8_toNat_ofNat (show 0x80 + n / 64 % 64 < 256 by omega),
          u8_toNat_ofNat (show 0x80 + n % 64 < 256 by omega)]
        rw [if_neg (by omega), if_neg (by omega), if_neg (by omega), if_pos (by omega)]
        have e : (224 + n / 4096 - 224) * 4096 + (128 + n / 64 % 64 - 128) * 64
            + (128 + n % 64 - 128) = n := by omega
        rw [e, if_pos, hc]
        simp; omega
      · rename_i h1 h2 h3
        simp only [List.cons_append, List.nil_append]
        rw [utf8Decode]
        simp only [isCont, u8_toNat_ofNat (show 0xF0 + n / 262144 < 256 by omega),
          u8_toNat_ofNat (show 0x80 + n / 4096 % 64 < 256 by omega),
          u8_toNat_ofNat (show 0x80 + n / 64 % 64 < 256 by omega),
          u8_toNat_ofNat (show 0x80 + n % 64 < 256 by omega)]
        rw [if_neg (by omega), if_neg (by omega), if_neg (by omega), if_neg (by omega),
          if_pos (by omega)]
        have e : (240 + n / 262144 - 240) * 262144 + (128 + n / 4096 % 64 - 128) * 4096
            + (128 + n / 64 % 64 - 128) * 64 + (128 + n % 64 - 128) = n := by omega
        rw [e, if_pos, hc]
        simp; omega

theorem utf8Decode_encode_append (s : Str) (bs : Bytes) :
    utf8Decode (utf8Encode s ++ bs) = (utf8Decode bs).map (s ++ ·) := by
  induction s with
  | nil => simp [utf8Encode]
  | cons c s ih =>
    have : utf8Encode (c :: s) = utf8EncodeChar c ++ utf8Encode s := by simp [utf8Encode]
    rw [this, List.append_assoc, utf8Decode_encodeChar, ih]
    cases utf8Decode bs <;> simp

/-- Decoding an encoded string returns it. -/
theorem utf8Decode_encode (s : Str) : utf8Decode (utf8Encode s) = some s := by
  have h := utf8Decode_encode_append s []
  simpa [utf8Decode] using h

theorem utf8Encode_injective {s t : Str} (h : utf8Encode s = utf8Encode t) : s = t := by
  have h1 := utf8Decode_encode s
  rw [h, utf8Decode_encode] at h1
  simpa using h1.symm

theorem utf8Encode_append (s t : Str) : utf8Encode (s ++ t) = utf8Encode s ++ utf8Encode t := by
  simp [utf8Encode]

theorem charOfNat_toNat {n : Nat} (h : n < 0xD800 ∨ (0xDFFF < n ∧ n < 0x110000)) :
    (Char.ofNat n).toNat = n := by
  have hv : n.isValidChar := h
  simp [Char.ofNat, hv, Char.toNat, Char.ofNatAux]

theorem u8_ofNat_toNat (b : UInt8) : UInt8.ofNat b.toNat = b := by simp

/-- A successfully decoded byte string is the encoding of the result (strictness of the decoder). -/
theorem utf8Encode_decode (bs : Bytes) (s : Str) (h : utf8Decode bs = some s) :
    utf8Encode s = bs := by
  induction bs using utf8Decode.induct generalizing s with
  | case1 => simp [utf8Decode] at h; subst h; rfl
  | case2 b0 rest hlt ih =>
    rw [utf8Decode.eq_def] at h
    simp only [if_pos hlt] at h
    obtain ⟨t, ht, rfl⟩ := Option.map_eq_some_iff.1 h
    have : utf8Encode (Char.ofNat b0.toNat :: t)
        = utf8EncodeChar (Char.ofNat b0.toNat) ++ utf8Encode t := by simp [utf8Encode]
    rw [this, ih t ht, utf8EncodeChar, charOfNat_toNat (by omega)]
    simp [hlt]
  | case3 b0 rest h1 h2 => rw [utf8Decode.eq_def] at h; simp [h1, h2] at h
  | case4 b0 h1 h2 h3 b1 rest n hn ih =>
    rw [utf8Decode] at h
    simp only [h1, h2, h3, if_true, if_false] at h
    rw [if_pos hn] at h
    obtain ⟨t, ht, rfl⟩ := Option.map_eq_some_iff.1 h
    have : ∀ c : Char, utf8Encode (c :: t) = utf8EncodeChar c ++ utf8Encode t := by
      simp [utf8Encode]
    have hb0 := b0.toNat_lt
    simp only [isCont, Bool.and_eq_true, decide_eq_true_eq] at hn
    have en : n = (b0.toNat - 192) * 64 + (b1.toNat - 128) := rfl
    rw [this, ih t ht, utf8EncodeChar, charOfNat_toNat (by omega)]
    rw [if_neg (by omega), if_pos (by omega)]
    have e0 : 192 + n / 64 = b0.toNat := by omega
    have e1 : 128 + n % 64 = b1.toNat := by omega
    rw [e0, e1]; simp
  | case5 b0 h1 h2 h3 b1 rest n hn =>
    rw [utf8Decode] at h
    simp only [h1, h2, h3, if_true, if_false] at h
    rw [if_neg hn] at h
    cases h
  | case6 b0 rest h1 h2 h3 hrest =>
    rw [utf8Decode.eq_def] at h
    simp only [h1, h2, h3, if_true, if_false] at h
    cases h
  | case7 b0 h1 h2 h3 h4 b1 b2 rest n hn ih =>
    rw [utf8Decode] at h
    simp only [h1, h2, h3, h4, if_true, if_false] at h
    rw [if_pos hn] at h
    obtain ⟨t, ht, rfl⟩ := Option.map_eq_some_iff.1 h
    have : ∀ c : Char, utf8Encode (c :: t) = utf8EncodeChar c ++ utf8Encode t := by
      simp [utf8Encode]
    have hb0 := b0.toNat_lt
    simp only [isCont, Bool.and_eq_true, decide_eq_true_eq, Bool.not_eq_true',
      Bool.and_eq_false_iff, decide_eq_false_iff_not] at hn
    have en : n = (b0.toNat - 224) * 4096 + (b1.toNat - 128) * 64 + (b2.toNat - 128) := rfl
    rw [this, ih t ht, utf8EncodeChar, charOfNat_toNat (by omega)]
    rw [if_neg (by omega), if_neg (by omega), if_pos (by omega)]
    have e0 : 224 + n / 4096 = b0.toNat := by omega
    have e1 : 128 + n / 64 % 64 = b1.toNat := by omega
    have e2 : 128 + n % 64 = b2.toNat := by omega
    rw [e0, e1, e2]; simp
  | case8 b0 h1 h2 h3 h4 b1 b2 rest n hn =>
    rw [utf8Decode] at h
    simp only [h1, h2, h3, h4, if_true, if_false] at h
    rw [if_neg hn] at h
    cases h
  | case9 b0 rest h1 h2 h3 h4 hrest =>
    rw [utf8Decode.eq_def] at h
    simp only [h1, h2, h3, h4, if_true, if_false] at h
    cases h
  | case10 b0 h1 h2 h3 h4 h5 b1 b2 b3 rest n hn ih =>
    rw [utf8Decode] at h
    simp only [h1, h2, h3, h4, h5, if_true, if_false] at h
    rw [if_pos hn] at h
    obtain ⟨t, ht, rfl⟩ := Option.map_eq_some_iff.1 h
    have : ∀ c : Char, utf8Encode (c :: t) = utf8EncodeChar c ++ utf8Encode t := by
      simp [utf8Encode]
    have hb0 := b0.toNat_lt
    simp only [isCont, Bool.and_eq_true, decide_eq_true_eq] at hn
    have en : n = (b0.toNat - 240) * 262144 + (b1.toNat - 128) * 4096 + (b2.toNat - 128) * 64
        + (b3.toNat - 128) := rfl
    rw [this, ih t ht, utf8EncodeChar, charOfNat_toNat (by omega)]
    rw [if_neg (by omega), if_neg (by omega), if_neg (by omega)]
    have e0 : 240 + n / 262144 = b0.toNat := by omega
    have e1 : 128 + n / 4096 % 64 = b1.toNat := by omega
    have e2 : 128 + n / 64 % 64 = b2.toNat := by omega
    have e3 : 128 + n % 64 = b3.toNat := by omega
    rw [e0, e1, e2, e3]; simp
  | case11 b0 h1 h2 h3 h4 h5 b1 b2 b3 rest n hn =>
    rw [utf8Decode] at h
    simp only [h1, h2, h3, h4, h5, if_true, if_false] at h
    rw [if_neg hn] at h
    cases h
  | case12 b0 rest h1 h2 h3 h4 h5 hrest =>
    rw [utf8Decode.eq_def] at h
    simp only [h1, h2, h3, h4, h5, if_true, if_false] at h
    cases h
  | case13 b0 rest h1 h2 h3 h4 h5 =>
    rw [utf8Decode.eq_def] at h
    simp [h1, h2, h3, h4, h5] at h

end Oid4vci
