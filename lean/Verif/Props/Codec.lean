import Mathlib.Tactic.Ring
import Mathlib.Data.List.Basic
import Mathlib.Data.List.Induction
import Verif.Spec.Base64
import Verif.Lemmas.Base64

/-! C44: base64url. -/

namespace Oid4vci

open Spec Base64

theorem numeral_append (r : Nat) (xs ys : List Nat) :
    numeral r (xs ++ ys) = numeral r xs * r ^ ys.length + numeral r ys := by
  have key : ∀ (ys : List Nat) (a : Nat),
      ys.foldl (fun a d => a * r + d) a = a * r ^ ys.length + numeral r ys := by
    intro ys
    induction ys with
    | nil => intro a; simp [numeral]
    | cons y ys ih =>
      intro a
      have e : numeral r (y :: ys) = (0 * r + y) * r ^ ys.length + numeral r ys := by
        rw [← ih]; rfl
      rw [List.foldl_cons, ih, e]
      simp only [List.length_cons, pow_succ]
      ring
  rw [numeral, List.foldl_append, key]
  rfl

theorem numeral_inj {r : Nat} (xs ys : List Nat) (hl : xs.length = ys.length)
    (hx : ∀ d ∈ xs, d < r) (hy : ∀ d ∈ ys, d < r) (h : numeral r xs = numeral r ys) : xs = ys := by
  induction xs using List.reverseRecOn generalizing ys with
  | nil => cases ys with
    | nil => rfl
    | cons => simp at hl
  | append_singleton xs x ih =>
    rcases List.eq_nil_or_concat ys with rfl | ⟨ys, y, rfl⟩
    · simp at hl
    · rw [List.concat_eq_append] at *
      rw [numeral_append, numeral_append] at h
      have h2 := hx x (by simp)
      have h3 := hy y (by simp)
      simp [numeral] at h
      change numeral r xs * r + x = numeral r ys * r + y at h
      have e1 := congrArg (· % r) h
      simp only [Nat.mul_comm _ r, Nat.mul_add_mod, Nat.mod_eq_of_lt h2, Nat.mod_eq_of_lt h3] at e1
      subst e1
      have e2 : numeral r xs * r = numeral r ys * r := by omega
      have e3 := Nat.eq_of_mul_eq_mul_right (by omega) e2
      rw [ih ys (by simpa using hl) (fun d hd => hx d (by simp [hd]))
        (fun d hd => hy d (by simp [hd])) e3]

theorem encSym_eq (d : Fin 64) : encSym urlSafe d.1 = base64urlAlphabet[d.1]! := by
  revert d; decide +kernel

/-- `encode` writes the number. -/
theorem isBase64url_encode (b : Bytes) : IsBase64url b (base64urlEncode b) := by
  unfold base64urlEncode
  have sym : ∀ n (h : n < 64), encSym urlSafe n = base64urlAlphabet[(⟨n, h⟩ : Fin 64).1]! :=
    fun n h => encSym_eq ⟨n, h⟩
  induction b using encode.induct with
  | case1 b0 b1 b2 rest ih =>
    have h0 := b0.toNat_lt
    have h1 := b1.toNat_lt
    have h2 := b2.toNat_lt
    obtain ⟨ds, pad, hp, hs, hl, hn⟩ := ih
    refine ⟨[⟨b0.toNat / 4, by omega⟩, ⟨b0.toNat % 4 * 16 + b1.toNat / 16, by omega⟩,
      ⟨b1.toNat % 16 * 4 + b2.toNat / 64, by omega⟩, ⟨b2.toNat % 64, by omega⟩] ++ ds, pad, hp,
      ?_, ?_, ?_⟩
    · rw [encode, hs]
      simp only [List.map_cons, List.cons_append, List.nil_append]
      rw [← sym, ← sym, ← sym, ← sym] <;> omega
    · simp only [List.length_append, List.length_cons, List.length_nil]; omega
    · rw [List.map_append, numeral_append,
        show (b0 :: b1 :: b2 :: rest).map UInt8.toNat
          = [b0.toNat, b1.toNat, b2.toNat] ++ rest.map UInt8.toNat from rfl, numeral_append, hn]
      have e1 : numeral 64 (List.map Fin.val ([⟨b0.toNat / 4, by omega⟩,
          ⟨b0.toNat % 4 * 16 + b1.toNat / 16, by omega⟩,
          ⟨b1.toNat % 16 * 4 + b2.toNat / 64, by omega⟩, ⟨b2.toNat % 64, by omega⟩] : List (Fin 64)))
          = numeral 256 [b0.toNat, b1.toNat, b2.toNat] := by
        simp only [numeral, List.map_cons, List.map_nil, List.foldl_cons, List.foldl_nil]
        omega
      rw [e1]
      simp only [List.length_map]
      have e2 : (64 : Nat) ^ ds.length = 256 ^ rest.length * 2 ^ pad := by
        have : ∀ n, (64 : Nat) ^ n = 2 ^ (6 * n) := fun n => by rw [pow_mul]; norm_num
        rw [this, hl, pow_add, pow_mul]
        norm_num
      rw [e2]
      ring
  | case2 b0 b1 =>
    have h0 := b0.toNat_lt
    have h1 := b1.toNat_lt
    refine ⟨[⟨b0.toNat / 4, by omega⟩, ⟨b0.toNat % 4 * 16 + b1.toNat / 16, by omega⟩,
      ⟨b1.toNat % 16 * 4, by omega⟩], 2, by omega, ?_, rfl, ?_⟩
    · rw [encode]
      simp only [List.map_cons, List.map_nil]
      rw [← sym, ← sym, ← sym] <;> omega
    · simp only [numeral, List.map_cons, List.map_nil, List.foldl_cons, List.foldl_nil]
      omega
  | case3 b0 =>
    have h0 := b0.toNat_lt
    refine ⟨[⟨b0.toNat / 4, by omega⟩, ⟨b0.toNat % 4 * 16, by omega⟩], 4, by omega, ?_, rfl, ?_⟩
    · rw [encode]
      simp only [List.map_cons, List.map_nil]
      rw [← sym, ← sym] <;> omega
    · simp only [numeral, List.map_cons, List.map_nil, List.foldl_cons, List.foldl_nil]
      omega
  | case4 => exact ⟨[], 0, by omega, rfl, rfl, rfl⟩

/-- Each byte string has only one base64url text. -/
theorem isBase64url_unique {b : Bytes} {s t : Str} (hs : IsBase64url b s) (ht : IsBase64url b t) :
    s = t := by
  obtain ⟨ds, p, hp, rfl, hl, hn⟩ := hs
  obtain ⟨es, q, hq, rfl, hl', hn'⟩ := ht
  have hpq : p = q := by omega
  subst hpq
  have : ds.map Fin.val = es.map Fin.val := by
    refine numeral_inj (r := 64) _ _ (by simp; omega) ?_ ?_ (hn.trans hn'.symm)
    · simp
    · simp
  have : ds = es := List.map_injective_iff.2 (fun _ _ h => Fin.ext h) this
  rw [this]

/-- C44. Encoding and decoding are RFC 4648's base64url without padding: a text decodes to a byte
string exactly if it is that byte string's base64url text, and encoding produces that text. -/
theorem C44_base64url_rfc4648 (b : Bytes) (s : Str) :
    (base64urlDecode s = some b ↔ IsBase64url b s) ∧
    (base64urlEncode b = s ↔ IsBase64url b s) := by
  have h2 : base64urlEncode b = s ↔ IsBase64url b s :=
    ⟨fun h => h ▸ isBase64url_encode b, fun h => isBase64url_unique (isBase64url_encode b) h⟩
  refine ⟨?_, h2⟩
  rw [← h2]
  constructor
  · exact fun h => encode_decode s b h
  · rintro rfl; exact decode_encode (.inl rfl) b

/-- C44. Decoding inverts encoding, encoding inverts decoding, no two texts decode to the same
bytes, and encoded texts use only the URL-safe alphabet. -/
theorem C44_base64url_bijection :
    (∀ b, base64urlDecode (base64urlEncode b) = some b) ∧
    (∀ s b, base64urlDecode s = some b → base64urlEncode b = s) ∧
    (∀ s t b, base64urlDecode s = some b → base64urlDecode t = some b → s = t) ∧
    (∀ b, ∀ c ∈ base64urlEncode b, c ∈ base64urlAlphabet) := by
  refine ⟨decode_encode (.inl rfl), fun s b h => encode_decode s b h, fun s t b hs ht => ?_, ?_⟩
  · exact (encode_decode s b hs).symm.trans (encode_decode t b ht)
  · intro b c hc
    obtain ⟨n, hn, rfl⟩ := mem_encode b c hc
    rw [encSym_eq ⟨n, hn⟩]
    have : ∀ d : Fin 64, base64urlAlphabet[d.1]! ∈ base64urlAlphabet := by decide +kernel
    exact this ⟨n, hn⟩

example : base64urlEncode (utf8Encode (str! "hello?>")) = str! "aGVsbG8_Pg" := by decide +kernel
example : base64urlDecode (str! "aGVsbG8_Ph") = none := by decide +kernel
example : base64urlDecode (str! "aGVsbG8=") = none := by decide +kernel

end Oid4vci
