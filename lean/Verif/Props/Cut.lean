import Verif.Props.HeaderReport

/-! C140: headers and bodies that are cut off or run on. -/

namespace Oid4vci

open Spec Reading
open Json (octets)

/-- The octets of whitespace: space, tab, line feed and carriage return. -/
def Spec.whitespace : List UInt8 := [32, 9, 10, 13]

theorem isWs_octet {c : UInt8} (hc : c ∉ whitespace) : Json.isWs (Char.ofNat c.toNat) = false := by
  have : ∀ n : Fin 256, UInt8.ofNat n.1 ∉ whitespace → Json.isWs (Char.ofNat n.1) = false := by decide +kernel
  have h := this ⟨c.toNat, c.toNat_lt⟩
  simp only [UInt8.ofNat_toNat] at h
  exact h hc

theorem document_trailing {f : Reader Json} {s r w : Str} {c : Char} {j : Json} (hf : got f s = some (j, w ++ c :: r))
    (hw : Ws w) (hc : Json.isWs c = false) :
    document f s = (.err trailingCharacters (some r.length), c :: r) := by
  unfold document
  rw [bind_ok hf, bind_ok (got_ws _), skipWs_char hw hc]
  rfl

theorem octets_cons (b rest : Bytes) (c : UInt8) :
    octets (b ++ c :: rest) = octets b ++ Char.ofNat c.toNat :: octets rest := by
  rw [Json.octets_append]; rfl

/-- C140. A header that runs on is rejected for what follows it; the place is the first octet of that which is
not whitespace. -/
theorem C140_header_runs_on (T : Texts) (b rest : Bytes) (c : UInt8) (hb : ReadableHeader b) (hc : c ∉ whitespace) :
    ∃ text, headerReport T (b ++ c :: rest) = some text ∧
      Report (b ++ c :: rest) (str! "trailing characters") (b.length + 1) text := by
  obtain ⟨j, r, h⟩ := (header_got (T := T)).2 hb
  obtain ⟨-, w, t, w', hw, ht, hw', e⟩ := (document_iff (reads_header T) (Json.narrow_octets b)).1 h
  have h1 := header_complete T (r := w' ++ Char.ofNat c.toNat :: octets rest) hw ht.1 ht.2
  have h2 := document_trailing h1 hw' (isWs_octet hc)
  have e' : w ++ t ++ (w' ++ Char.ofNat c.toNat :: octets rest) = octets (b ++ c :: rest) := by
    rw [octets_cons, e]; simp
  obtain ⟨text, h3, h4⟩ := header_report (Json.octets_iff.2 e') h2
  refine ⟨text, h3, ?_⟩
  rw [show (b ++ c :: rest).length - (octets rest).length = b.length + 1 by simp [octets]; omega] at h4
  exact h4

/-- C140. The same for the body. -/
theorem C140_body_runs_on (x : Ext) (T : Texts) (b rest : Bytes) (c : UInt8) (hb : ReadableBody x b)
    (hc : c ∉ whitespace) :
    ∃ text, bodyReport x T (b ++ c :: rest) = some text ∧
      Report (b ++ c :: rest) (str! "trailing characters") (b.length + 1) text := by
  obtain ⟨j, r, h⟩ := (body_got (T := T)).2 hb
  obtain ⟨-, w, t, w', hw, ht, hw', e⟩ := (document_iff (reads_body x T) (Json.narrow_octets b)).1 h
  have h1 := body_complete x T (r := w' ++ Char.ofNat c.toNat :: octets rest) hw ht.1 ht.2
  have h2 := document_trailing h1 hw' (isWs_octet hc)
  have e' : w ++ t ++ (w' ++ Char.ofNat c.toNat :: octets rest) = octets (b ++ c :: rest) := by
    rw [octets_cons, e]; simp
  obtain ⟨text, h3, h4⟩ := body_report (Json.octets_iff.2 e') h2
  refine ⟨text, h3, ?_⟩
  rw [show (b ++ c :: rest).length - (octets rest).length = b.length + 1 by simp [octets]; omega] at h4
  exact h4

/-- The first octet that is not whitespace. -/
theorem first_octet : ∀ (l : Bytes), (∃ c ∈ l, c ∉ whitespace) →
    ∃ u c v, l = u ++ c :: v ∧ (∀ d ∈ u, d ∈ whitespace) ∧ c ∉ whitespace
  | [], h => by simp at h
  | d :: l, h => by
    by_cases hd : d ∈ whitespace
    · obtain ⟨c, hc, hn⟩ := h
      rcases List.mem_cons.1 hc with rfl | hc
      · exact absurd hd hn
      · obtain ⟨u, c, v, rfl, h1, h2⟩ := first_octet l ⟨c, hc, hn⟩
        exact ⟨d :: u, c, v, rfl, by simpa [hd] using h1, h2⟩
    · exact ⟨[], d, l, rfl, by simp, hd⟩

theorem octets_whitespace {u : Bytes} (h : ∀ d ∈ u, d ∈ whitespace) : Ws (octets u) := by
  have : ∀ n : Fin 256, UInt8.ofNat n.1 ∈ whitespace → Char.ofNat n.1 ∈ [' ', '\t', '\n', '\r'] := by decide +kernel
  intro c hc
  obtain ⟨d, hd, rfl⟩ := List.mem_map.1 hc
  have h' := this ⟨d.toNat, d.toNat_lt⟩
  simp only [UInt8.ofNat_toNat] at h'
  exact h' (h d hd)

/-- Whitespace may follow. -/
theorem readableHeader_space {b u : Bytes} (hb : ReadableHeader b) (hu : ∀ d ∈ u, d ∈ whitespace) :
    ReadableHeader (b ++ u) := by
  let T : Texts := ⟨id, id, []⟩
  obtain ⟨j, r, h⟩ := (header_got (T := T)).2 hb
  obtain ⟨-, w, t, w', hw, ht, hw', e⟩ := (document_iff (reads_header T) (Json.narrow_octets b)).1 h
  exact (header_got (T := T)).1 ⟨j, [], (document_iff (reads_header T) (Json.narrow_octets _)).2
    ⟨rfl, w, t, w' ++ octets u, hw, ht, Ws.append hw' (octets_whitespace hu), by rw [Json.octets_append, e]; simp⟩⟩

theorem readableBody_space {x : Ext} {b u : Bytes} (hb : ReadableBody x b) (hu : ∀ d ∈ u, d ∈ whitespace) :
    ReadableBody x (b ++ u) := by
  let T : Texts := ⟨id, id, []⟩
  obtain ⟨j, r, h⟩ := (body_got (T := T)).2 hb
  obtain ⟨-, w, t, w', hw, ht, hw', e⟩ := (document_iff (reads_body x T) (Json.narrow_octets b)).1 h
  exact (body_got (T := T)).1 ⟨j, [], (document_iff (reads_body x T) (Json.narrow_octets _)).2
    ⟨rfl, w, t, w' ++ octets u, hw, ht, Ws.append hw' (octets_whitespace hu), by rw [Json.octets_append, e]; simp⟩⟩

/-- C140. Of two readable headers, one of which begins with the other, one is the other with whitespace. -/
theorem C140_header_whole (b rest : Bytes) (hb : ReadableHeader b) :
    ReadableHeader (b ++ rest) ↔ ∀ c ∈ rest, c ∈ whitespace := by
  refine ⟨fun h => ?_, readableHeader_space hb⟩
  by_contra hn
  push Not at hn
  obtain ⟨u, c, v, rfl, hu, hc⟩ := first_octet rest hn
  let T : Texts := ⟨id, id, []⟩
  obtain ⟨text, h1, -⟩ := C140_header_runs_on T (b ++ u) v c (readableHeader_space hb hu) hc
  rw [List.append_assoc, (C122_header T _).1.2 h] at h1
  cases h1

/-- C140. The same for the body. -/
theorem C140_body_whole (x : Ext) (b rest : Bytes) (hb : ReadableBody x b) :
    ReadableBody x (b ++ rest) ↔ ∀ c ∈ rest, c ∈ whitespace := by
  refine ⟨fun h => ?_, readableBody_space hb⟩
  by_contra hn
  push Not at hn
  obtain ⟨u, c, v, rfl, hu, hc⟩ := first_octet rest hn
  let T : Texts := ⟨id, id, []⟩
  obtain ⟨text, h1, -⟩ := C140_body_runs_on x T (b ++ u) v c (readableBody_space hb hu) hc
  rw [List.append_assoc, (C122_body x T _).1.2 h] at h1
  cases h1

/-- C140. A header that is cut off is rejected; the place is where it ends. -/
theorem C140_header_cut (T : Texts) (b rest : Bytes) (h : ReadableHeader (b ++ rest))
    (hr : ∃ c ∈ rest, c ∉ whitespace) :
    ∃ text m, headerReport T b = some text ∧ Report b m b.length text := by
  have hn : ¬ ReadableHeader b := fun hb => by
    obtain ⟨c, h1, h2⟩ := hr
    exact h2 ((C140_header_whole b rest hb).1 h c h1)
  obtain ⟨h1, h2⟩ := C122_header T b
  cases ht : headerReport T b with
  | none => exact absurd (h1.1 ht) hn
  | some text =>
    obtain ⟨m, n, h3, h4⟩ := h2 text ht
    have hle := h3.1
    rcases Nat.lt_or_ge n b.length with hlt | hge
    · exact absurd h (h4 hlt _ (by rw [List.take_append_of_le_length (by omega)]))
    · obtain rfl : n = b.length := by omega
      exact ⟨text, m, rfl, h3⟩

/-- C140. The same for the body. -/
theorem C140_body_cut (x : Ext) (T : Texts) (b rest : Bytes) (h : ReadableBody x (b ++ rest))
    (hr : ∃ c ∈ rest, c ∉ whitespace) :
    ∃ text m, bodyReport x T b = some text ∧ Report b m b.length text := by
  have hn : ¬ ReadableBody x b := fun hb => by
    obtain ⟨c, h1, h2⟩ := hr
    exact h2 ((C140_body_whole x b rest hb).1 h c h1)
  obtain ⟨h1, h2⟩ := C122_body x T b
  cases ht : bodyReport x T b with
  | none => exact absurd (h1.1 ht) hn
  | some text =>
    obtain ⟨m, n, h3, h4⟩ := h2 text ht
    have hle := h3.1
    rcases Nat.lt_or_ge n b.length with hlt | hge
    · exact absurd h (h4 hlt _ (by rw [List.take_append_of_le_length (by omega)]))
    · obtain rfl : n = b.length := by omega
      exact ⟨text, m, rfl, h3⟩

namespace Ex

theorem readable_header : ReadableHeader (utf8Encode (str! "{\"typ\":\"x\",\"alg\":\"ES256\"}")) :=
  (C122_header texts _).1.1 (by decide +kernel)

theorem readable_body : ReadableBody ext (utf8Encode (str! "{\"aud\":\"a\",\"iat\":\"5\",\"nonce\":\"n\"} ")) :=
  (C122_body ext texts _).1.1 (by decide +kernel)

/-- C140, a brace too many, and a word after the body. -/
example : ∃ text, headerReport texts (utf8Encode (str! "{\"typ\":\"x\",\"alg\":\"ES256\"}") ++ 125 :: []) = some text ∧
    Report (utf8Encode (str! "{\"typ\":\"x\",\"alg\":\"ES256\"}") ++ 125 :: []) (str! "trailing characters") (25 + 1) text :=
  C140_header_runs_on texts _ [] 125 readable_header (by decide)
example : bodyReport ext texts (utf8Encode (str! "{\"aud\":\"a\",\"iat\":\"5\",\"nonce\":\"n\"} more")) =
    some (str! "trailing characters at line 1 column 35") := by decide +kernel

/-- C140, the body without its last brace, and in the middle. -/
example : ∃ text m, bodyReport ext texts (utf8Encode (str! "{\"aud\":\"a\",\"iat\":\"5\",\"nonce\":\"n\"")) = some text ∧
    Report (utf8Encode (str! "{\"aud\":\"a\",\"iat\":\"5\",\"nonce\":\"n\"")) m 32 text :=
  C140_body_cut ext texts _ [125, 32] readable_body ⟨125, by decide, by decide⟩
example : bodyReport ext texts (utf8Encode (str! "{\"aud\":\"a\",\"ia")) =
    some (str! "EOF while parsing a string at line 1 column 14") := by decide +kernel

/-- C140, the header and the space. -/
example : ReadableBody ext (utf8Encode (str! "{\"aud\":\"a\",\"iat\":\"5\",\"nonce\":\"n\"} ") ++ [10]) :=
  (C140_body_whole ext _ [10] readable_body).2 (by decide)
example : ¬ ReadableHeader (utf8Encode (str! "{\"typ\":\"x\",\"alg\":\"ES256\"}") ++ [0]) := fun h =>
  absurd ((C140_header_whole _ [0] readable_header).1 h) (by decide)

end Ex

end Oid4vci
