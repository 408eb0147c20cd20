import Verif.Lemmas.ReadingQuote
import Verif.Props.Torn

/-! C150: what is said to have ended too early is what was open. -/

namespace Oid4vci

open Spec Spec.Place Reading
open Json (octets)

/-- After an octet: quotation marks begin and end strings, except after a backslash in one; brackets outside of strings
open and close. -/
def Spec.Place.next : Place → UInt8 → Place
  | outside k, c =>
    if c = 34 then inside k
    else if c = 91 then outside (.square :: k)
    else if c = 123 then outside (.curly :: k)
    else if c = 93 ∨ c = 125 then outside k.tail
    else outside k
  | inside k, c => if c = 34 then outside k else if c = 92 then escaped k else inside k
  | escaped k, _ => inside k

/-- Where a text ends. -/
def Spec.place (b : Bytes) : Place := b.foldl Place.next (outside [])

theorem octet_char {c d : UInt8} : Char.ofNat c.toNat = Char.ofNat d.toNat ↔ c = d := by
  have : ∀ m n : Fin 256, Char.ofNat m.1 = Char.ofNat n.1 → m = n := by
    intro m n h
    have h1 : ∀ k : Fin 256, (Char.ofNat k.1).toNat = k.1 := by decide +kernel
    exact Fin.ext (by rw [← h1 m, ← h1 n, h])
  refine ⟨fun h => ?_, fun h => by rw [h]⟩
  have := this ⟨c.toNat, c.toNat_lt⟩ ⟨d.toNat, d.toNat_lt⟩ h
  exact UInt8.toNat_inj.1 (congrArg Fin.val this)

theorem place_step (p : Place) (c : UInt8) : Quote.step p (Char.ofNat c.toNat) = p.next c := by
  have h1 : Char.ofNat c.toNat = '"' ↔ c = 34 := octet_char (d := 34)
  have h2 : Char.ofNat c.toNat = '[' ↔ c = 91 := octet_char (d := 91)
  have h3 : Char.ofNat c.toNat = '{' ↔ c = 123 := octet_char (d := 123)
  have h4 : Char.ofNat c.toNat = ']' ↔ c = 93 := octet_char (d := 93)
  have h5 : Char.ofNat c.toNat = '}' ↔ c = 125 := octet_char (d := 125)
  have h6 : Char.ofNat c.toNat = '\\' ↔ c = 92 := octet_char (d := 92)
  cases p with
  | outside k =>
    simp only [Quote.step, Place.next, h1, h2, h3, h4, h5]
  | inside k =>
    simp only [Quote.step, Place.next, h1, h6]
  | escaped k => rfl

theorem place_run (b : Bytes) : Quote.run (outside []) (octets b) = place b := by
  have : ∀ (b : Bytes) (p : Place), (octets b).foldl Quote.step p = b.foldl Place.next p := by
    intro b
    induction b with
    | nil => intro p; rfl
    | cons c b ih =>
      intro p
      exact (congrArg (fun q => (octets b).foldl Quote.step q) (place_step p c)).trans (ih _)
  exact this b _

theorem quote_said {E : List Str} {f : Reader Json} (hf : Quote.Torn E none (outside []) (outside []) True f)
    (ht : Total f) {b rest : Bytes} {j : Json} {r : Str} (h : f (octets (b ++ rest)) = (.ok j, r))
    (hn : ∀ j r, f (octets b) ≠ (.ok j, r)) :
    ∃ m ∈ E, (∃ r, f (octets b) = (.err m (some 0), r)) ∧ Quote.Fit (place b) m := by
  rw [Json.octets_append] at h
  rcases hf.cut _ _ _ _ (by simp) h with ⟨u, s', -, -, h1, -⟩ | h1 | ⟨-, -, j', h1⟩
  · exact absurd h1 (hn _ _)
  · rw [place_run] at h1
    generalize ho : f (octets b) = o at h1
    cases h1 with
    | err m r hm hp => exact ⟨m, hm, ⟨r, rfl⟩, hp⟩
    | stuck r => exact absurd (congrArg Prod.fst ho) (ht.runs (octets b))
  · exact absurd h1 (hn _ _)

/-- What is said to have ended fits the place: a string if one is in a string, a list or an object only if that is
innermost. -/
def Spec.FitsPlace (p : Place) (m : Str) : Prop :=
  (m = str! "EOF while parsing a string" ↔ ∀ k, p ≠ outside k) ∧
    (m = str! "EOF while parsing a list" → ∃ k, p = outside (.square :: k)) ∧
    (m = str! "EOF while parsing an object" → ∃ k, p = outside (.curly :: k))

theorem fits {p : Place} {m : Str} (h : Quote.Fit p m) : FitsPlace p m := by
  have head : ∀ {k : List Spec.Bracket} {b}, k.head? = some b → ∃ k', outside k = outside (b :: k') := by
    intro k b h
    cases k with
    | nil => cases h
    | cons c k => cases h; exact ⟨k, rfl⟩
  cases p with
  | outside k =>
    obtain ⟨h1, h2, h3⟩ := h
    exact ⟨⟨fun h => absurd h h1, fun h => absurd rfl (h k)⟩, fun h => head (h2 h), fun h => head (h3 h)⟩
  | inside k =>
    obtain rfl : m = eofString := h
    exact ⟨⟨fun _ _ => nofun, fun _ => rfl⟩, fun h => absurd h (by decide), fun h => absurd h (by decide)⟩
  | escaped k =>
    obtain rfl : m = eofString := h
    exact ⟨⟨fun _ _ => nofun, fun _ => rfl⟩, fun h => absurd h (by decide), fun h => absurd h (by decide)⟩

/-- C150. What is said about a header that is cut off fits the place where it is cut off. -/
theorem C150_header (T : Texts) (b rest : Bytes) (h : ReadableHeader (b ++ rest)) (hr : ∃ c ∈ rest, c ∉ whitespace) :
    ∃ text m, headerReport T b = some text ∧ Report b m b.length text ∧
      m ∈ str! "number out of range" :: endedEarly ∧ FitsPlace (place b) m := by
  obtain ⟨j, r, h1⟩ := (header_got (T := T)).2 h
  obtain ⟨m, hm, ⟨r, h2⟩, hf⟩ := quote_said (Quote.torn_header (E := str! "number out of range" :: endedEarly) T)
    (total_header T) (got_eq_some.1 h1) (header_unread h hr)
  obtain ⟨text, h3, h4⟩ := header_report (Json.octets_iff.2 rfl) h2
  exact ⟨text, m, h3, h4, hm, fits hf⟩

/-- C150. The same for the body. -/
theorem C150_body (x : Ext) (T : Texts) (b rest : Bytes) (h : ReadableBody x (b ++ rest))
    (hr : ∃ c ∈ rest, c ∉ whitespace) :
    ∃ text m, bodyReport x T b = some text ∧ Report b m b.length text ∧ m ∈ str! "invalid number" :: endedEarly ∧
      FitsPlace (place b) m := by
  obtain ⟨j, r, h1⟩ := (body_got (T := T)).2 h
  obtain ⟨m, hm, ⟨r, h2⟩, hf⟩ := quote_said (Quote.torn_body (E := str! "invalid number" :: endedEarly) x T)
    (total_body x T) (got_eq_some.1 h1) (body_unread h hr)
  obtain ⟨text, h3, h4⟩ := body_report (Json.octets_iff.2 rfl) h2
  exact ⟨text, m, h3, h4, hm, fits hf⟩

/-- C150. In particular, a header that is cut off in a string is reported for that, -/
theorem C150_header_string (T : Texts) (b rest : Bytes) (h : ReadableHeader (b ++ rest))
    (hr : ∃ c ∈ rest, c ∉ whitespace) (hb : ∀ k, place b ≠ outside k) :
    ∃ text, headerReport T b = some text ∧ Report b (str! "EOF while parsing a string") b.length text := by
  obtain ⟨text, m, h1, h2, -, hf, -⟩ := C150_header T b rest h hr
  rw [hf.2 hb] at h2
  exact ⟨text, h1, h2⟩

/-- C150. and so is a body. -/
theorem C150_body_string (x : Ext) (T : Texts) (b rest : Bytes) (h : ReadableBody x (b ++ rest))
    (hr : ∃ c ∈ rest, c ∉ whitespace) (hb : ∀ k, place b ≠ outside k) :
    ∃ text, bodyReport x T b = some text ∧ Report b (str! "EOF while parsing a string") b.length text := by
  obtain ⟨text, m, h1, h2, -, hf, -⟩ := C150_body x T b rest h hr
  rw [hf.2 hb] at h2
  exact ⟨text, h1, h2⟩

namespace Ex

/-- C150, in the name of a member, after an escaped quotation mark, and in nested brackets. -/
example : place (utf8Encode (str! "{\"typ\":\"x\",\"al")) = inside [.curly] := by decide +kernel
example : place (utf8Encode (str! "{\"a\":[\"\\\"")) = inside [.square, .curly] := by decide +kernel
example : place (utf8Encode (str! "{\"a\":[1,{\"b\":\"]\"}")) = outside [.square, .curly] := by decide +kernel

example : ∃ text, headerReport texts (utf8Encode (str! "{\"typ\":\"x\",\"al")) = some text ∧
    Report (utf8Encode (str! "{\"typ\":\"x\",\"al")) (str! "EOF while parsing a string") 14 text :=
  C150_header_string texts _ (utf8Encode (str! "g\":\"ES256\"}")) (by
    rw [show utf8Encode (str! "{\"typ\":\"x\",\"al") ++ utf8Encode (str! "g\":\"ES256\"}") =
      utf8Encode (str! "{\"typ\":\"x\",\"alg\":\"ES256\"}") by decide +kernel]
    exact readable_header) ⟨103, by decide +kernel, by decide⟩ (by
    rw [show place (utf8Encode (str! "{\"typ\":\"x\",\"al")) = inside [.curly] by decide +kernel]; exact fun _ => nofun)

example : ∃ text m, bodyReport ext texts (utf8Encode (str! "{\"aud\":\"a\",\"iat\":\"5\",\"nonce\":\"n\"")) = some text ∧
    Report (utf8Encode (str! "{\"aud\":\"a\",\"iat\":\"5\",\"nonce\":\"n\"")) m 32 text ∧
    m ∈ str! "invalid number" :: endedEarly ∧
    FitsPlace (place (utf8Encode (str! "{\"aud\":\"a\",\"iat\":\"5\",\"nonce\":\"n\""))) m :=
  C150_body ext texts _ [125, 32] readable_body ⟨125, by decide, by decide⟩

/-- C150, what fits is not everything: a list is not what ended here. -/
example : ¬ FitsPlace (place (utf8Encode (str! "{\"aud\":\"a\""))) (str! "EOF while parsing a list") := fun h => by
  obtain ⟨k, hk⟩ := h.2.1 rfl
  rw [show place (utf8Encode (str! "{\"aud\":\"a\"")) = outside [.curly] by decide +kernel] at hk
  cases hk

end Ex

end Oid4vci
