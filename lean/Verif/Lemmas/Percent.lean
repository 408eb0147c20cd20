import Verif.Base.Percent
import Verif.Lemmas.Utf8
import Verif.Spec.Url

/-! Percent-encoding. -/

namespace Oid4vci

open Spec

theorem char_le_iff (a b : Char) : a ≤ b ↔ a.toNat ≤ b.toNat := Iff.rfl

theorem isUnreserved_iff (n : Nat) : isUnreserved n = true ↔
    (48 ≤ n ∧ n ≤ 57) ∨ (65 ≤ n ∧ n ≤ 90) ∨ (97 ≤ n ∧ n ≤ 122) ∨ n = 45 ∨ n = 46 ∨ n = 95
      ∨ n = 126 := by
  simp only [isUnreserved, Bool.or_eq_true, Bool.and_eq_true, decide_eq_true_eq, beq_iff_eq]
  omega

theorem unreserved_ofNat {n : Nat} (h : isUnreserved n = true) : Unreserved (Char.ofNat n) := by
  rw [isUnreserved_iff] at h
  have e : (Char.ofNat n).toNat = n := charOfNat_toNat (by omega)
  simp only [Unreserved, char_le_iff, e]
  rcases h with h | h | h | h | h | h | h
  · exact .inr (.inr (.inl h))
  · exact .inl h
  · exact .inr (.inl h)
  all_goals (subst h; decide)

instance (c : Char) : Decidable (Unreserved c) := by unfold Unreserved; infer_instance

instance (c : Char) : Decidable (UpperHex c) := by unfold UpperHex; infer_instance

theorem upperHex_hexUpper {n : Nat} (h : n < 16) : UpperHex (hexUpper n) :=
  (by decide : ∀ n : Fin 16, UpperHex (hexUpper n.1)) ⟨n, h⟩

theorem hexDigit_hexUpper {n : Nat} (h : n < 16) : hexDigit (hexUpper n) = some n :=
  (by decide : ∀ n : Fin 16, hexDigit (hexUpper n.1) = some n.1) ⟨n, h⟩

theorem payload_append {s t : Str} (hs : Payload s) (ht : Payload t) : Payload (s ++ t) := by
  induction hs with
  | nil => exact ht
  | char hc _ ih => exact .char hc ih
  | triplet h l _ ih => exact .triplet h l ih

theorem payload_percentByte (b : UInt8) : Payload (percentByte b) := by
  unfold percentByte
  split
  · rename_i h; exact .char (unreserved_ofNat h) .nil
  · have := b.toNat_lt
    exact .triplet (upperHex_hexUpper (by omega)) (upperHex_hexUpper (by omega)) .nil

theorem payload_flatMap (bs : Bytes) : Payload (bs.flatMap percentByte) := by
  induction bs with
  | nil => exact .nil
  | cons b bs ih => simpa using payload_append (payload_percentByte b) ih

theorem percentDecode_percentByte (b : UInt8) (s : Str) :
    percentDecode (percentByte b ++ s) = (percentDecode s).map (b :: ·) := by
  have hb := b.toNat_lt
  unfold percentByte
  split
  · rename_i h
    rw [isUnreserved_iff] at h
    have e : (Char.ofNat b.toNat).toNat = b.toNat := charOfNat_toNat (by omega)
    have hne : Char.ofNat b.toNat ≠ '%' := by
      intro hc
      have : (Char.ofNat b.toNat).toNat = '%'.toNat := by rw [hc]
      rw [e] at this
      have h37 : '%'.toNat = 37 := rfl
      omega
    have h1 : ∀ c : Char, c ≠ '%' →
        percentDecode (c :: s) = (percentDecode s).map (utf8EncodeChar c ++ ·) := by
      intro c hc
      rw [percentDecode.eq_def]
      split
      · rename_i heq; cases heq
      · rename_i heq; cases heq; exact absurd rfl hc
      · rename_i heq; cases heq; rw [if_neg hc]
    simp only [List.cons_append, List.nil_append]
    rw [h1 _ hne]
    have e2 : utf8EncodeChar (Char.ofNat b.toNat) = [b] := by
      simp only [utf8EncodeChar, e]
      rw [if_pos (by omega)]; simp
    simp [e2]
  · simp only [List.cons_append, List.nil_append, percentDecode,
      hexDigit_hexUpper (show b.toNat / 16 < 16 by omega),
      hexDigit_hexUpper (show b.toNat % 16 < 16 by omega)]
    have : 16 * (b.toNat / 16) + b.toNat % 16 = b.toNat := by omega
    cases percentDecode s <;> simp [this]

theorem percentDecode_flatMap (bs : Bytes) : percentDecode (bs.flatMap percentByte) = some bs := by
  induction bs with
  | nil => rfl
  | cons b bs ih => rw [List.flatMap_cons, percentDecode_percentByte, ih]; rfl

theorem urlDecode_urlencode (s : Str) : urlDecode (urlencode s) = some s := by
  simp [urlDecode, urlencode, percentDecode_flatMap, utf8Decode_encode]

theorem payload_urlencode (s : Str) : Payload (urlencode s) := payload_flatMap _

/-- Characters of a payload. -/
theorem payload_mem {s : Str} (h : Payload s) : ∀ c ∈ s, Unreserved c ∨ c = '%' := by
  induction h with
  | nil => simp
  | char hc _ ih =>
    intro c hm
    rcases List.mem_cons.1 hm with rfl | hm
    · exact .inl hc
    · exact ih c hm
  | triplet hh hl _ ih =>
    intro c hm
    have hx : ∀ c, UpperHex c → Unreserved c := by
      intro c hc
      simp only [UpperHex, Unreserved, char_le_iff] at *
      rcases hc with hc | hc
      · exact .inr (.inr (.inl hc))
      · exact .inl ⟨hc.1, Nat.le_trans hc.2 (by decide)⟩
    simp only [List.mem_cons] at hm
    rcases hm with rfl | rfl | rfl | hm
    · exact .inr rfl
    · exact .inl (hx _ hh)
    · exact .inl (hx _ hl)
    · exact ih c hm

theorem payload_not_mem {s : Str} (h : Payload s) (c : Char) (hc : ¬ Unreserved c) (hp : c ≠ '%') :
    c ∉ s := fun hm => (payload_mem h c hm).elim hc hp

end Oid4vci
