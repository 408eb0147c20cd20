import Verif.Lemmas.JsonText
import Verif.Lemmas.Utf8
import Verif.Spec.Utf8
import Verif.Spec.Example

/-! Texts: UTF-8 (RFC 3629) and JSON (RFC 8259). -/

namespace Oid4vci

open Spec

/-! ### UTF-8 -/

theorem octets_unique {n : Nat} {o o' : List Nat} (h : Utf8Octets n o) (h' : Utf8Octets n o') : o = o' := by
  cases h with
  | one _ h1 =>
    generalize hn : n = m at h'
    cases h' with
    | one => rfl
    | _ => omega
  | two a b ha hb h1 =>
    generalize hn : a * 64 + b = m at h'
    cases h' with
    | two a' b' =>
      have : a = a' := by omega
      have : b = b' := by omega
      subst_vars; rfl
    | _ => omega
  | three a b c ha hb hc h1 =>
    generalize hn : (a * 64 + b) * 64 + c = m at h'
    cases h' with
    | three a' b' c' =>
      have : a = a' := by omega
      have : b = b' := by omega
      have : c = c' := by omega
      subst_vars; rfl
    | _ => omega
  | four a b c d ha hb hc hd h1 =>
    generalize hn : ((a * 64 + b) * 64 + c) * 64 + d = m at h'
    cases h' with
    | four a' b' c' d' =>
      have : a = a' := by omega
      have : b = b' := by omega
      have : c = c' := by omega
      have : d = d' := by omega
      subst_vars; rfl
    | _ => omega

theorem octets_encodeChar (c : Char) : Utf8Octets c.toNat ((utf8EncodeChar c).map UInt8.toNat) := by
  have hc := char_toNat_cases c
  unfold utf8EncodeChar
  simp only
  generalize c.toNat = n at hc
  split
  · rw [List.map_cons, u8_toNat_ofNat (by omega)]
    exact .one n (by omega)
  split
  · simp only [List.map_cons, List.map_nil]
    rw [u8_toNat_ofNat (by omega), u8_toNat_ofNat (by omega)]
    have := Utf8Octets.two (n / 64) (n % 64) (by omega) (by omega) (by omega)
    rwa [show n / 64 * 64 + n % 64 = n by omega] at this
  split
  · simp only [List.map_cons, List.map_nil]
    rw [u8_toNat_ofNat (by omega), u8_toNat_ofNat (by omega), u8_toNat_ofNat (by omega)]
    have := Utf8Octets.three (n / 4096) (n / 64 % 64) (n % 64) (by omega) (by omega) (by omega) (by omega)
    rwa [show (n / 4096 * 64 + n / 64 % 64) * 64 + n % 64 = n by omega] at this
  · simp only [List.map_cons, List.map_nil]
    rw [u8_toNat_ofNat (by omega), u8_toNat_ofNat (by omega), u8_toNat_ofNat (by omega),
      u8_toNat_ofNat (by omega)]
    have := Utf8Octets.four (n / 262144) (n / 4096 % 64) (n / 64 % 64) (n % 64) (by omega) (by omega)
      (by omega) (by omega) (by omega)
    rwa [show ((n / 262144 * 64 + n / 4096 % 64) * 64 + n / 64 % 64) * 64 + n % 64 = n by omega] at this

theorem map_toNat_inj {b b' : Bytes} (h : b.map UInt8.toNat = b'.map UInt8.toNat) : b = b' :=
  List.map_injective_iff.2 (fun _ _ h => UInt8.toNat_inj.1 h) h

theorem isUtf8_encode (s : Str) : IsUtf8 s (utf8Encode s) := by
  refine ⟨s.map fun c => (utf8EncodeChar c).map UInt8.toNat, ?_, ?_⟩
  · rw [List.forall₂_map_right_iff]
    exact List.forall₂_same.2 fun c _ => octets_encodeChar c
  · unfold utf8Encode
    rw [List.map_flatMap]
    exact List.flatMap_def ..

/-- C66. The bytes of a string are its UTF-8 form. -/
theorem C66_encode (s : Str) (b : Bytes) : utf8Encode s = b ↔ IsUtf8 s b := by
  refine ⟨fun h => h ▸ isUtf8_encode s, ?_⟩
  rintro ⟨os, h1, h2⟩
  obtain ⟨os', h1', h2'⟩ := isUtf8_encode s
  have : os = os' := by
    clear h2 h2'
    induction h1 generalizing os' with
    | nil => cases h1'; rfl
    | cons h _ ih =>
      cases h1' with
      | cons h' t' => rw [octets_unique h h', ih _ t']
  subst this
  exact map_toNat_inj (h2'.trans h2.symm)

/-- C66. Reading bytes as a string accepts exactly UTF-8: no overlong forms, no surrogates, nothing
above U+10FFFF, no truncated sequences. -/
theorem C66_decode (s : Str) (b : Bytes) : utf8Decode b = some s ↔ IsUtf8 s b := by
  rw [← C66_encode]
  exact ⟨utf8Encode_decode b s, fun h => h ▸ utf8Decode_encode s⟩

example : IsUtf8 ['a', 'é', '€', '𝄞'] [0x61, 0xC3, 0xA9, 0xE2, 0x82, 0xAC, 0xF0, 0x9D, 0x84, 0x9E] :=
  (C66_encode _ _).1 (by decide)
example : ∀ s, ¬ IsUtf8 s [0xC0, 0xAF] ∧ ¬ IsUtf8 s [0xED, 0xA0, 0x80] := fun s =>
  ⟨fun h => by have := (C66_decode _ _).2 h; revert this; rw [show utf8Decode _ = none by decide +kernel]; simp,
   fun h => by have := (C66_decode _ _).2 h; revert this; rw [show utf8Decode _ = none by decide +kernel]; simp⟩

/-! ### JSON -/

/-- C65. The parser accepts exactly the texts of the JSON grammar whose nesting is at most 127 deep, and
gives them the value of the grammar. -/
theorem C65_grammar (s : Str) (j : Json) : Json.parse s = some j ↔ JsonText j s ∧ depth j ≤ 127 :=
  Json.parse_iff

/-- C65. The same for bytes: UTF-8 of a JSON text. -/
theorem C65_bytes (b : Bytes) (j : Json) :
    Json.parseSlice b = some j ↔ ∃ s, IsUtf8 s b ∧ JsonText j s ∧ depth j ≤ 127 := by
  unfold Json.parseSlice
  simp only [Option.bind_eq_some_iff, C66_decode, C65_grammar]

/-- C65. The printer writes a JSON text for the document. -/
theorem C65_printed (j : Json) (h : PlainNumbers j) (hd : depth j ≤ 127) : JsonText j j.print :=
  ((C65_grammar _ _).1 (Json.parse_print j h hd)).1

/-- C65. A text has at most one value (of at most 127 levels). -/
theorem C65_unambiguous (s : Str) (j j' : Json) (h : JsonText j s) (h' : JsonText j' s)
    (hd : depth j ≤ 127) (hd' : depth j' ≤ 127) : j = j' :=
  Option.some.inj (((C65_grammar s j).2 ⟨h, hd⟩).symm.trans ((C65_grammar s j').2 ⟨h', hd'⟩))

/-- C65. White space around the text changes nothing. -/
theorem C65_whitespace (w w' s : Str) (j : Json) (hw : Ws w) (hw' : Ws w') (h : Json.parse s = some j) :
    Json.parse (w ++ s ++ w') = some j := by
  obtain ⟨⟨a, t, b, ha, ht, hb, rfl⟩, hd⟩ := (C65_grammar _ _).1 h
  refine (C65_grammar _ j).2 ⟨⟨w ++ a, t, b ++ w', ?_, ht, ?_, by simp⟩, hd⟩
  · intro c hc; rcases List.mem_append.1 hc with h | h
    · exact hw c h
    · exact ha c h
  · intro c hc; rcases List.mem_append.1 hc with h | h
    · exact hb c h
    · exact hw' c h

example : JsonText (.obj [(str! "a", .arr [.num (-5), .float ⟨false, 6597069766656000, -42⟩, .str ['€', '𝄞']])])
    (str! " { \"a\" : [ -5,1.50e+3, \"\\u20ac\\uD834\\udd1e\" ] }\n") :=
  ((C65_grammar _ _).1 (by decide +kernel)).1

/-- None of these is JSON. -/
example : ∀ s ∈ [str! "01", str! "1.", str! "[1,]", str! "{\"a\":1,}", str! "'a'", str! "\"\\ud800\"", str! "+1",
    str! "nul", str! "1 2", str! ""], Json.parse s = none := by decide +kernel

/-- The two texts of C65 at a document with a nested list. -/
example : JsonText (.obj [(str! "a", .arr [.num (-5), .null])]) (str! "{\"a\":[-5,null]}") :=
  C65_printed (.obj [(str! "a", .arr [.num (-5), .null])]) (by repeat' first | exact True.intro | decide | apply And.intro)
    (by decide)
example (j : Json) (h : JsonText j (str! "[ 1 ]")) (hd : depth j ≤ 127) : j = .arr [.num 1] :=
  C65_unambiguous _ _ _ h ((C65_grammar _ _).1 (by decide +kernel)).1 hd (by decide)

end Oid4vci
