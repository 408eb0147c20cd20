import Verif.Lemmas.ReadingTorn
import Verif.Props.Cut

/-! C149: what is said about headers and bodies that are cut off. -/

namespace Oid4vci

open Spec Reading
open Json (octets)

/-- The messages of serde_json for a text that ends too early. -/
def Spec.endedEarly : List Str :=
  [str! "EOF while parsing a list", str! "EOF while parsing an object", str! "EOF while parsing a string",
   str! "EOF while parsing a value"]

instance : Eofs endedEarly := ⟨by decide, by decide, by decide, by decide⟩
instance : Eofs (str! "number out of range" :: endedEarly) := ⟨by decide, by decide, by decide, by decide⟩
instance : Has (str! "number out of range" :: endedEarly) outOfRange := ⟨by decide⟩
instance : Eofs (str! "invalid number" :: endedEarly) := ⟨by decide, by decide, by decide, by decide⟩
instance : Has (str! "invalid number" :: endedEarly) invalidNumber := ⟨by decide⟩

/-- What a whole reader says about a beginning that it does not read. -/
theorem torn_said {E : List Str} {f : Reader Json} (hf : Torn E True f) (ht : Total f) {b rest : Bytes} {j : Json}
    {r : Str} (h : f (octets (b ++ rest)) = (.ok j, r)) (hn : ∀ j r, f (octets b) ≠ (.ok j, r)) :
    ∃ m ∈ E, ∃ r, f (octets b) = (.err m (some 0), r) := by
  rw [Json.octets_append] at h
  rcases hf.cut _ _ _ _ h with ⟨s', -, h1⟩ | h1 | ⟨-, j', h1⟩
  · exact absurd h1 (hn _ _)
  · generalize ho : f (octets b) = o at h1
    cases h1 with
    | err m r hm => exact ⟨m, hm, r, rfl⟩
    | stuck r => exact absurd (congrArg Prod.fst ho) (ht.runs (octets b))
  · exact absurd h1 (hn _ _)

theorem header_unread {T : Texts} {b rest : Bytes} (h : ReadableHeader (b ++ rest)) (hr : ∃ c ∈ rest, c ∉ whitespace) :
    ∀ j r, document (readHeader T) (octets b) ≠ (.ok j, r) := fun j r e => by
  obtain ⟨c, h1, h2⟩ := hr
  exact h2 ((C140_header_whole b rest ((header_got (T := T)).1 ⟨j, r, got_eq_some.2 e⟩)).1 h c h1)

theorem body_unread {x : Ext} {T : Texts} {b rest : Bytes} (h : ReadableBody x (b ++ rest))
    (hr : ∃ c ∈ rest, c ∉ whitespace) : ∀ j r, document (readBody x T) (octets b) ≠ (.ok j, r) := fun j r e => by
  obtain ⟨c, h1, h2⟩ := hr
  exact h2 ((C140_body_whole x b rest ((body_got (T := T)).1 ⟨j, r, got_eq_some.2 e⟩)).1 h c h1)

/-- C149. A header that is cut off is reported as one that ends too early, at its end. (Or, if it is cut off after
the digits of a number beyond the range that would have continued with a negative exponent, for that number.) -/
theorem C149_header (T : Texts) (b rest : Bytes) (h : ReadableHeader (b ++ rest)) (hr : ∃ c ∈ rest, c ∉ whitespace) :
    ∃ text m, headerReport T b = some text ∧ Report b m b.length text ∧
      m ∈ str! "number out of range" :: endedEarly := by
  obtain ⟨j, r, h1⟩ := (header_got (T := T)).2 h
  obtain ⟨m, hm, r, h2⟩ := torn_said (torn_header (E := str! "number out of range" :: endedEarly) T) (total_header T)
    (got_eq_some.1 h1) (header_unread h hr)
  obtain ⟨text, h3, h4⟩ := header_report (Json.octets_iff.2 rfl) h2
  exact ⟨text, m, h3, h4, hm⟩

/-- C149. The same for the body. (Or, if it is cut off within a number in a member that is not known, as one with an
invalid number.) -/
theorem C149_body (x : Ext) (T : Texts) (b rest : Bytes) (h : ReadableBody x (b ++ rest))
    (hr : ∃ c ∈ rest, c ∉ whitespace) :
    ∃ text m, bodyReport x T b = some text ∧ Report b m b.length text ∧ m ∈ str! "invalid number" :: endedEarly := by
  obtain ⟨j, r, h1⟩ := (body_got (T := T)).2 h
  obtain ⟨m, hm, r, h2⟩ := torn_said (torn_body (E := str! "invalid number" :: endedEarly) x T) (total_body x T)
    (got_eq_some.1 h1) (body_unread h hr)
  obtain ⟨text, h3, h4⟩ := body_report (Json.octets_iff.2 rfl) h2
  exact ⟨text, m, h3, h4, hm⟩

theorem octets_list {w u : Bytes} (hw : ∀ d ∈ w, d ∈ whitespace) :
    (Json.skipWs (octets (w ++ 91 :: u))).head? = some '[' := by
  rw [octets_cons, skipWs_char (octets_whitespace hw) (by decide)]
  rfl

/-- C149. The body as an array has no members that are not known: cut off after its opening bracket, it is always
reported as one that ends too early. -/
theorem C149_body_list (x : Ext) (T : Texts) (w u rest : Bytes) (h : ReadableBody x (w ++ 91 :: u ++ rest))
    (hw : ∀ d ∈ w, d ∈ whitespace) (hr : ∃ c ∈ rest, c ∉ whitespace) :
    ∃ text m, bodyReport x T (w ++ 91 :: u) = some text ∧ Report (w ++ 91 :: u) m (w ++ 91 :: u).length text ∧
      m ∈ endedEarly := by
  obtain ⟨j, r, h1⟩ := (body_got (T := T)).2 h
  have h1 := got_eq_some.1 h1
  have hn := body_unread (T := T) h hr
  have e1 := listBody_eq x T (octets_list (u := u) hw)
  have e2 := listBody_eq x T (s := octets (w ++ 91 :: u ++ rest)) (by
    rw [List.append_assoc, List.cons_append]; exact octets_list hw)
  rw [Json.octets_append] at e2 h1
  rw [e2] at h1
  have hs : Starved endedEarly (document (listBody x T) (octets (w ++ 91 :: u))) := by
    rcases (torn_listBody (E := endedEarly) x T).cut _ _ _ _ h1 with ⟨s', -, h2⟩ | h2 | ⟨-, j', h2⟩
    · exact absurd (e1.trans h2) (hn _ _)
    · exact h2
    · exact absurd (e1.trans h2) (hn _ _)
  rw [← e1] at hs
  generalize ho : document (readBody x T) (octets (w ++ 91 :: u)) = o at hs
  cases hs with
  | err m r hm =>
    obtain ⟨text, h3, h4⟩ := body_report (Json.octets_iff.2 rfl) ho
    exact ⟨text, m, h3, h4, hm⟩
  | stuck r => exact absurd (congrArg Prod.fst ho) ((total_body x T).runs _)

namespace Ex

/-- C149, a header and a body in the middle. -/
example : ∃ text m, headerReport texts (utf8Encode (str! "{\"typ\":\"x\",\"al")) = some text ∧
    Report (utf8Encode (str! "{\"typ\":\"x\",\"al")) m 14 text ∧ m ∈ str! "number out of range" :: endedEarly :=
  C149_header texts _ (utf8Encode (str! "g\":\"ES256\"}")) (by
    rw [show utf8Encode (str! "{\"typ\":\"x\",\"al") ++ utf8Encode (str! "g\":\"ES256\"}") =
      utf8Encode (str! "{\"typ\":\"x\",\"alg\":\"ES256\"}") by decide +kernel]
    exact readable_header) ⟨103, by decide +kernel, by decide⟩
example : ∃ text m, bodyReport ext texts (utf8Encode (str! "{\"aud\":\"a\",\"iat\":\"5\",\"nonce\":\"n\"")) = some text ∧
    Report (utf8Encode (str! "{\"aud\":\"a\",\"iat\":\"5\",\"nonce\":\"n\"")) m 32 text ∧
    m ∈ str! "invalid number" :: endedEarly :=
  C149_body ext texts _ [125, 32] readable_body ⟨125, by decide, by decide⟩

/-- C149, the four messages. -/
example : headerReport texts (utf8Encode (str! "{\"typ\":\"x\",\"jwk\":[1")) =
    some (str! "EOF while parsing a list at line 1 column 19") := by decide +kernel
example : headerReport texts (utf8Encode (str! "{\"typ\":\"x\"")) =
    some (str! "EOF while parsing an object at line 1 column 10") := by decide +kernel
example : headerReport texts (utf8Encode (str! "{\"typ\":\"x")) =
    some (str! "EOF while parsing a string at line 1 column 9") := by decide +kernel
example : headerReport texts (utf8Encode (str! "{\"typ\":")) =
    some (str! "EOF while parsing a value at line 1 column 7") := by decide +kernel

/-- C149, why the header's numbers are mentioned: this is a header, -/
def hugeHead : Bytes := utf8Encode (str! "{\"typ\":\"x\",\"alg\":\"ES256\",\"n\":1" ++ List.replicate 400 '0')
example : ReadableHeader (hugeHead ++ utf8Encode (str! "e-300}")) := (C122_header texts _).1.1 (by decide +kernel)
/-- and this is what is said about its beginning. -/
example : headerReport texts hugeHead = some (str! "number out of range at line 1 column 430") := by decide +kernel

/-- C149, why the body's numbers are mentioned. -/
example : ReadableBody ext (utf8Encode (str! "{\"n\":-1,\"aud\":\"a\",\"iat\":\"5\",\"nonce\":\"n\"}")) :=
  (C122_body ext texts _).1.1 (by decide +kernel)
example : bodyReport ext texts (utf8Encode (str! "{\"n\":-")) = some (str! "invalid number at line 1 column 6") := by
  decide +kernel

/-- C149, an array. -/
theorem readable_list : ReadableBody ext (utf8Encode (str! "[null,\"a\",null,\"5\",\"n\",null,null]")) :=
  (C122_body ext texts _).1.1 (by decide +kernel)
example : ∃ text m, bodyReport ext texts ([] ++ 91 :: utf8Encode (str! "null,\"a\"")) = some text ∧
    Report ([] ++ 91 :: utf8Encode (str! "null,\"a\"")) m 9 text ∧ m ∈ endedEarly :=
  C149_body_list ext texts [] _ (utf8Encode (str! ",null,\"5\",\"n\",null,null]")) (by
    rw [show ([] ++ 91 :: utf8Encode (str! "null,\"a\"") ++ utf8Encode (str! ",null,\"5\",\"n\",null,null]")) =
      utf8Encode (str! "[null,\"a\",null,\"5\",\"n\",null,null]") by decide +kernel]
    exact readable_list) (by simp) ⟨44, by decide +kernel, by decide⟩

end Ex

end Oid4vci
