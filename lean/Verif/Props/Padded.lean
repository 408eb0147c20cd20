import Mathlib.Tactic.IntervalCases
import Verif.Props.Codec

/-! C89: the padded base64 half of base.rs. -/

namespace Oid4vci

open Spec Base64

/-- The digits of an encoding do not depend on the alphabet. -/
theorem encode_digits (b : Bytes) :
    ∃ ns : List (Fin 64), ∀ a : Alphabet, encode a b = ns.map (fun d => encSym a d.1) := by
  induction b using encode.induct with
  | case1 b0 b1 b2 rest ih =>
    have h0 := b0.toNat_lt
    have h1 := b1.toNat_lt
    have h2 := b2.toNat_lt
    obtain ⟨ns, h⟩ := ih
    refine ⟨⟨b0.toNat / 4, by omega⟩ :: ⟨b0.toNat % 4 * 16 + b1.toNat / 16, by omega⟩
      :: ⟨b1.toNat % 16 * 4 + b2.toNat / 64, by omega⟩ :: ⟨b2.toNat % 64, by omega⟩ :: ns, ?_⟩
    intro a
    rw [encode, h]; rfl
  | case2 b0 b1 =>
    have h0 := b0.toNat_lt
    have h1 := b1.toNat_lt
    exact ⟨[⟨b0.toNat / 4, by omega⟩, ⟨b0.toNat % 4 * 16 + b1.toNat / 16, by omega⟩,
      ⟨b1.toNat % 16 * 4, by omega⟩], fun a => rfl⟩
  | case3 b0 =>
    have h0 := b0.toNat_lt
    exact ⟨[⟨b0.toNat / 4, by omega⟩, ⟨b0.toNat % 4 * 16, by omega⟩], fun a => rfl⟩
  | case4 => exact ⟨[], fun a => rfl⟩

theorem encSym_standard (d : Fin 64) : encSym standard d.1 = base64Alphabet[d.1]! := by
  revert d; decide +kernel

theorem base64Alphabet_ne_pad (d : Fin 64) : base64Alphabet[d.1]! ≠ '=' := by
  revert d; decide +kernel

/-- The padding completes the last group. -/
theorem padding (n : Nat) : (4 - (n * 4 + 2) / 3 % 4) % 4 = (3 - n % 3) % 3 ∧
    ((n * 4 + 2) / 3 + (3 - n % 3) % 3) % 4 = 0 := by
  obtain ⟨q, r, hr, rfl⟩ : ∃ q r, r < 3 ∧ n = 3 * q + r := ⟨n / 3, n % 3, by omega, by omega⟩
  have h3 : (3 * q + r) % 3 = r := by omega
  have h4 : ((3 * q + r) * 4 + 2) / 3 = 4 * q + (r * 4 + 2) / 3 := by omega
  rw [h3, h4]
  have h5 : (4 * q + (r * 4 + 2) / 3) % 4 = (r * 4 + 2) / 3 % 4 := by omega
  rw [h5, Nat.add_assoc]
  have h6 : (4 * q + ((r * 4 + 2) / 3 + (3 - r) % 3)) % 4 = ((r * 4 + 2) / 3 + (3 - r) % 3) % 4 := by
    omega
  rw [h6]
  interval_cases r <;> decide

/-- The padded encoding writes the number and completes the last group. -/
theorem isBase64_encode (b : Bytes) : IsBase64 b (base64Encode b) := by
  obtain ⟨ns, hns⟩ := encode_digits b
  obtain ⟨ds, pad, hp, hs, hl, hn⟩ := isBase64url_encode b
  have hd : ns = ds := by
    rw [base64urlEncode, hns urlSafe] at hs
    have hs' : ns.map (fun d => encSym urlSafe d.1) = ds.map (fun d => encSym urlSafe d.1) := by
      rw [hs]; exact List.map_congr_left fun d _ => (encSym_eq d).symm
    refine List.map_injective_iff.2 (fun x y h => ?_) hs'
    have e := congrArg (decSym urlSafe) h
    rw [decSym_encSym (.inl rfl) x.2, decSym_encSym (.inl rfl) y.2] at e
    exact Fin.ext (Option.some.inj e)
  subst hd
  have hpad : pad = 2 * ((3 - b.length % 3) % 3) := by omega
  refine ⟨ns, (3 - b.length % 3) % 3, by omega, ?_, ?_, by omega, ?_⟩
  · rw [base64Encode, hns standard]
    congr 1
    exact List.map_congr_left fun d _ => encSym_standard d
  · rw [base64Encode, hns standard, List.length_append, List.length_map, List.length_replicate]
    omega
  · rw [hn, hpad]

/-- Each byte string has only one padded base64 text. -/
theorem isBase64_unique {b : Bytes} {s t : Str} (hs : IsBase64 b s) (ht : IsBase64 b t) :
    s = t := by
  obtain ⟨ds, p, hp, rfl, hm, hl, hn⟩ := hs
  obtain ⟨es, q, hq, rfl, hm', hl', hn'⟩ := ht
  have hpq : p = q := by omega
  subst hpq
  have : ds.map Fin.val = es.map Fin.val := by
    refine numeral_inj (r := 64) _ _ (by simp; omega) ?_ ?_ (hn.trans hn'.symm)
    · simp
    · simp
  have : ds = es := List.map_injective_iff.2 (fun _ _ h => Fin.ext h) this
  rw [this]

/-- Decoding reads only canonical texts. -/
theorem encode_of_base64Decode {s : Str} {b : Bytes} (h : base64Decode s = some b) :
    base64Encode b = s := by
  unfold base64Decode at h
  split at h
  · cases h
  simp only at h
  split at h
  · rename_i h4 hs
    have e := encode_decode _ _ h
    have hl := length_encode (a := standard) b
    rw [e] at hl
    rw [base64Encode, e]
    conv_rhs => rw [hs]
    congr 2
    rw [hl]
    exact (padding b.length).1.symm
  · cases h

theorem base64Decode_encode (b : Bytes) : base64Decode (base64Encode b) = some b := by
  have hlen := length_encode (a := standard) b
  have hne : ∀ c ∈ encode standard b, c ≠ '=' := by
    intro c hc
    obtain ⟨n, hn, rfl⟩ := mem_encode b c hc
    rw [encSym_standard ⟨n, hn⟩]
    exact base64Alphabet_ne_pad ⟨n, hn⟩
  have htw : (base64Encode b).takeWhile (· ≠ '=') = encode standard b := by
    unfold base64Encode
    rw [List.takeWhile_append_of_pos (by simpa using hne)]
    cases (3 - b.length % 3) % 3 <;> simp [List.replicate_succ]
  unfold base64Decode
  rw [if_neg, htw]
  · simp only
    rw [if_pos, decode_encode (.inr rfl)]
    unfold base64Encode
    congr 2
    rw [hlen]; exact (padding b.length).1.symm
  · simp only [base64Encode, List.length_append, hlen, List.length_replicate]
    exact not_not.2 (padding b.length).2

/-- C89. `base64::encode` and `base64::decode` are RFC 4648's base64 with padding: a text decodes to
a byte string exactly if it is that byte string's padded base64 text, and encoding produces that
text. -/
theorem C89_base64_rfc4648 (b : Bytes) (s : Str) :
    (base64Decode s = some b ↔ IsBase64 b s) ∧ (base64Encode b = s ↔ IsBase64 b s) := by
  have h2 : base64Encode b = s ↔ IsBase64 b s :=
    ⟨fun h => h ▸ isBase64_encode b, fun h => isBase64_unique (isBase64_encode b) h⟩
  refine ⟨?_, h2⟩
  rw [← h2]
  constructor
  · exact encode_of_base64Decode
  · rintro rfl; exact base64Decode_encode b

/-- C89. The two codecs of base.rs never read each other's output as something else: a text which
both decode is read as the same bytes. -/
theorem C89_no_confusion {s : Str} {b c : Bytes} (h : base64Decode s = some b)
    (h' : base64urlDecode s = some c) : b = c := by
  have e := (C89_base64_rfc4648 b s).2.2 ((C89_base64_rfc4648 b s).1.1 h)
  have e' := (C44_base64url_rfc4648 c s).2.2 ((C44_base64url_rfc4648 c s).1.1 h')
  obtain ⟨ns, hn⟩ := encode_digits b
  obtain ⟨ms, hm⟩ := encode_digits c
  rw [base64Encode, hn] at e
  rw [base64urlEncode, hm] at e'
  have hnopad : (3 - b.length % 3) % 3 = 0 := by
    by_contra hk
    obtain ⟨k, hk⟩ := Nat.exists_eq_succ_of_ne_zero hk
    have : '=' ∈ s := by rw [← e, hk]; simp [List.replicate_succ]
    rw [← e'] at this
    obtain ⟨d, -, hd⟩ := List.mem_map.1 this
    revert hd; revert d; decide +kernel
  rw [hnopad, List.replicate_zero, List.append_nil, ← e'] at e
  have hsame : ∀ x y : Fin 64, encSym standard x.1 = encSym urlSafe y.1 → x = y := by decide +kernel
  have hnm : ns = ms := by
    have hl : ns.length = ms.length := by simpa using congrArg List.length e
    refine List.ext_getElem hl fun i h1 h2 => hsame _ _ ?_
    have := congrArg (·[i]?) e
    simpa [h1, h2] using this
  have hb := decode_encode (a := standard) (.inr rfl) b
  have hc := decode_encode (a := standard) (.inr rfl) c
  rw [hn, hnm, ← hm, hc] at hb
  exact (Option.some.inj hb).symm

/- The RFC's test vectors (section 10). -/
example : base64Encode (utf8Encode (str! "foob")) = str! "Zm9vYg==" := by decide +kernel
example : base64Encode (utf8Encode (str! "fooba")) = str! "Zm9vYmE=" := by decide +kernel
example : base64Encode (utf8Encode (str! "foobar")) = str! "Zm9vYmFy" := by decide +kernel
example : base64Decode (str! "Zm9vYg==") = some (utf8Encode (str! "foob")) := by decide +kernel
example : base64Decode (str! "Zm9vYg") = none := by decide +kernel
example : base64Decode (str! "Zm9vYh==") = none := by decide +kernel
example : base64Decode (str! "Zm9vYg==Zm9v") = none := by decide +kernel
example : base64Decode (str! "Zm9v") = base64urlDecode (str! "Zm9v") := by decide +kernel

end Oid4vci
