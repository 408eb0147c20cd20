import Verif.Props.Unreadable
import Verif.Lemmas.ReadingSame

/-!
Reports about unreadable JSON depend on what has been read (C134).
-/

namespace Oid4vci

open Spec Reading
open Json (octets)

theorem octets_append (a b : Bytes) : octets (a ++ b) = octets a ++ octets b := by simp [octets]

theorem display_take {s s' m : Str} {l l' : Nat} (h : s.take (s.length - l) = s'.take (s'.length - l')) :
    display s m l = display s' m l' := by
  unfold display
  rw [h]

theorem report_same {f : Reader Json} (hs : Steady (document (settle f))) {b : Bytes} {text : Str}
    (h : report (document (settle f)) b = some text) : ∃ m n, Report b m n text ∧
      (n < b.length → ∀ b' : Bytes, b'.take (n + 1) = b.take (n + 1) → n + 4 ≤ b'.length →
        report (document (settle f)) b' = some text) := by
  have hlen : (octets b).length = b.length := by simp [octets]
  rcases hr : document (settle f) (octets b) with ⟨a | ⟨m, _ | l⟩ | _, r⟩
  · unfold report at h; rw [hr] at h; cases h
  · exact absurd hr (document_placed f _ _ _)
  · have hl : l ≤ b.length := by rw [← hlen]; exact hs.calm.place _ _ _ _ hr
    have ht : text = display (octets b) m l := by
      unfold report at h; rw [hr] at h; exact (Option.some.inj h).symm
    subst ht
    refine ⟨m, b.length - l, display_report hl, fun hn b' hb h4 => ?_⟩
    have e : b = b.take (b.length - l + 1) ++ b.drop (b.length - l + 1) := (List.take_append_drop _ _).symm
    have e' : b' = b.take (b.length - l + 1) ++ b'.drop (b.length - l + 1) := by
      rw [← hb]; exact (List.take_append_drop _ _).symm
    have l1 : (octets (b.drop (b.length - l + 1))).length = b.length - (b.length - l + 1) := by simp [octets]
    have l2 : (octets (b'.drop (b.length - l + 1))).length = b'.length - (b.length - l + 1) := by simp [octets]
    have hr' := hr
    rw [e, octets_append] at hr'
    obtain ⟨r', h'⟩ := hs.fault _ _ (octets (b'.drop (b.length - l + 1))) m l r (by rw [l2]; omega) hr'
      (by rw [l1]; omega)
    rw [← octets_append, ← e', l1, l2] at h'
    unfold report
    rw [h']
    simp only [Option.some.injEq]
    apply display_take
    have hlen' : (octets b').length = b'.length := by simp [octets]
    rw [hlen, hlen', show b'.length - (l - (b.length - (b.length - l + 1)) + (b'.length - (b.length - l + 1))) =
      b.length - l by omega]
    unfold octets
    rw [← List.map_take, ← List.map_take]
    congr 1
    have := congrArg (List.take (b.length - l)) hb
    simpa [List.take_take] using this
  · unfold report at h; rw [hr] at h; cases h

/-- C134. The report about a header depends on the octets up to its place and one more: whatever follows these, as
long as it is at least three octets, the report is the same. -/
theorem C134_header (T : Texts) (b : Bytes) (text : Str) (h : headerReport T b = some text) :
    ∃ m n, Report b m n text ∧ (n < b.length → ∀ b' : Bytes, b'.take (n + 1) = b.take (n + 1) → n + 4 ≤ b'.length →
      headerReport T b' = some text) :=
  report_same (steady_header T) h

/-- C134. The same for the body. -/
theorem C134_body (x : Ext) (T : Texts) (b : Bytes) (text : Str) (h : bodyReport x T b = some text) :
    ∃ m n, Report b m n text ∧ (n < b.length → ∀ b' : Bytes, b'.take (n + 1) = b.take (n + 1) → n + 4 ≤ b'.length →
      bodyReport x T b' = some text) :=
  report_same (steady_body x T) h

theorem digits_last {a b d d' : Str} {c c' : Char} (hd : ∀ x ∈ d, Json.isDigit x = true)
    (hd' : ∀ x ∈ d', Json.isDigit x = true) (hc : Json.isDigit c = false) (hc' : Json.isDigit c' = false)
    (h : a ++ c :: d = b ++ c' :: d') : a ++ [c] = b ++ [c'] ∧ d = d' := by
  have key : ∀ {a b d d' : Str} {c c' : Char}, (∀ x ∈ d, Json.isDigit x = true) → Json.isDigit c' = false →
      a ++ c :: d = b ++ c' :: d' → b.length ≤ a.length := by
    intro a b d d' c c' hd hc h
    by_contra hlt
    have : b ++ c' :: d' = (a ++ [c]) ++ d := by simpa using h.symm
    obtain ⟨t, ht⟩ : ∃ t, b = a ++ [c] ++ t := by
      have h1 := List.append_eq_append_iff.1 this
      rcases h1 with ⟨t, h1, h2⟩ | ⟨t, h1, h2⟩
      · have := congrArg List.length h1
        simp only [List.length_append, List.length_cons, List.length_nil] at this
        have : t = [] := by
          apply List.eq_nil_of_length_eq_zero; omega
        subst this
        exact ⟨[], by simpa using h1.symm⟩
      · exact ⟨t, h1⟩
    subst ht
    have h2 : d = t ++ c' :: d' := by
      have : (a ++ [c]) ++ (t ++ c' :: d') = (a ++ [c]) ++ d := by simpa using this
      exact (List.append_cancel_left this).symm
    have := hd c' (by rw [h2]; simp)
    rw [hc] at this
    cases this
  have hl : a.length = b.length := Nat.le_antisymm (key hd' hc h.symm) (key hd hc' h)
  obtain ⟨h1, h2⟩ := List.append_inj h hl
  cases h2
  exact ⟨by rw [h1], rfl⟩

theorem place_unique {b : Bytes} {n n' line column : Nat} (hn : n ≤ b.length) (hn' : n' ≤ b.length)
    (h : PlaceAfter b n line column) (h' : PlaceAfter b n' line column) : n = n' := by
  wlog hle : n ≤ n' generalizing n n'
  · exact (this hn' hn h' h (by omega)).symm
  obtain ⟨k, rfl⟩ := Nat.exists_eq_add_of_le hle
  obtain ⟨ls, r, e, hls, hr, hl, hc⟩ := h
  obtain ⟨ls', r', e', hls', hr', hl', hc'⟩ := h'
  have ht : b.take (n + k) = b.take n ++ (b.drop n).take k := by rw [← List.take_add]
  have len1 := congrArg List.length e
  have len2 := congrArg List.length e'
  rw [List.length_take, Nat.min_eq_left hn, List.length_append] at len1
  rw [List.length_take, Nat.min_eq_left hn', List.length_append] at len2
  rw [ht, e] at e'
  have hcount : ls.count 0x0A = ls'.count 0x0A := by omega
  have hk : ((b.drop n).take k).count 0x0A = 0 := by
    have := congrArg (List.count 0x0A) e'
    simp only [List.count_append, List.count_eq_zero.2 hr, List.count_eq_zero.2 hr'] at this
    omega
  have hlines : ls'.length ≤ ls.length := by
    rcases hls' with rfl | ⟨l, rfl⟩
    · simp
    · by_contra hlt
      have e2 : ls ++ (r ++ (b.drop n).take k) = (l ++ [0x0A]) ++ r' := by simpa using e'
      rcases List.append_eq_append_iff.1 e2 with ⟨t, h1, h2⟩ | ⟨t, h1, h2⟩
      · have hm : (0x0A : UInt8) ∈ t := by
          rcases List.eq_nil_or_concat t with rfl | ⟨t', y, rfl⟩
          · simp only [List.append_nil] at h1
            rw [h1] at hlt
            omega
          · rw [List.concat_eq_append, ← List.append_assoc] at h1
            have := (List.append_inj' h1 rfl).2
            cases this
            simp
        have : (0x0A : UInt8) ∈ r ++ (b.drop n).take k := by rw [h2]; simp [hm]
        rcases List.mem_append.1 this with h | h
        · exact hr h
        · exact List.count_eq_zero.1 hk h
      · have := congrArg List.length h1
        simp only [List.length_append, List.length_cons, List.length_nil] at this hlt
        omega
  omega

/-- C134. A report has one message and names one place. -/
theorem C134_place (b : Bytes) (m m' text : Str) (n n' : Nat) (h : Report b m n text) (h' : Report b m' n' text) :
    m = m' ∧ n = n' := by
  obtain ⟨hn, line, column, l, c, hp, hl, hc, rfl⟩ := h
  obtain ⟨hn', line', column', l', c', hp', hl', hc', e⟩ := h'
  have dl := (Json.intText_iff.1 hl).2.1
  have dl' := (Json.intText_iff.1 hl').2.1
  have dc := (Json.intText_iff.1 hc).2.1
  have dc' := (Json.intText_iff.1 hc').2.1
  have e1 : (m ++ str! " at line " ++ l ++ str! " column") ++ ' ' :: c =
      (m' ++ str! " at line " ++ l' ++ str! " column") ++ ' ' :: c' := by
    have h1 : ∀ t : Str, str! " column " ++ t = str! " column" ++ ' ' :: t := fun t => by rfl
    simp only [List.append_assoc, h1] at e ⊢
    exact e
  obtain ⟨e2, rfl⟩ := digits_last dc dc' (by decide) (by decide) e1
  have e3 : (m ++ str! " at line") ++ ' ' :: l = (m' ++ str! " at line") ++ ' ' :: l' := by
    have h1 : ∀ t : Str, str! " at line " ++ t = str! " at line" ++ ' ' :: t := fun t => by rfl
    have e4 : (m ++ str! " at line " ++ l) ++ str! " column " = (m' ++ str! " at line " ++ l') ++ str! " column " := by
      have h2 : str! " column " = str! " column" ++ [' '] := by decide
      rw [h2, ← List.append_assoc, ← List.append_assoc]
      exact e2
    have e5 := List.append_cancel_right e4
    simp only [List.append_assoc, h1] at e5 ⊢
    exact e5
  obtain ⟨e6, rfl⟩ := digits_last dl dl' (by decide) (by decide) e3
  have hm : m = m' := by
    have : m ++ (str! " at line" ++ [' ']) = m' ++ (str! " at line" ++ [' ']) := by
      rw [← List.append_assoc, ← List.append_assoc]
      exact e6
    exact List.append_cancel_right this
  have h1 : line = line' := (Json.intText_iff.1 hl).2.2.2.trans (Json.intText_iff.1 hl').2.2.2.symm
  have h2 : column = column' := (Json.intText_iff.1 hc).2.2.2.trans (Json.intText_iff.1 hc').2.2.2.symm
  subst h1 h2
  exact ⟨hm, place_unique hn hn' hp hp'⟩

/-- C134. Two proofs whose headers agree that far are rejected with the same report, whatever else they have. -/
theorem C134_jwt (x : Ext) (T : Texts) (s s' header header' body body' : Str) (rest rest' : List Str)
    (hb hb' bb bb' : Bytes) (m text : Str) (n : Nat)
    (hs : splitOn '.' s = header :: body :: rest) (hh : IsBase64url hb header) (hbb : IsBase64url bb body)
    (hs' : splitOn '.' s' = header' :: body' :: rest') (hh' : IsBase64url hb' header') (hbb' : IsBase64url bb' body')
    (h : ProofJwt.fromStr (withJson x T) s = .err (.any text)) (hu : ¬ ReadableHeader hb) (hr : Report hb m n text)
    (hn : n < hb.length) (ht : hb'.take (n + 1) = hb.take (n + 1)) (hl : n + 4 ≤ hb'.length) :
    ProofJwt.fromStr (withJson x T) s' = .err (.any text) := by
  cases h1 : headerReport T hb with
  | none => exact absurd ((C122_header T hb).1.1 h1) hu
  | some text' =>
    have h2 := (C122_jwt x T s header body rest hb bb hs hh hbb).1 text' h1
    rw [h2] at h
    cases h
    obtain ⟨m', n', hr', h3⟩ := C134_header T hb text h1
    obtain ⟨-, rfl⟩ := C134_place _ _ _ _ _ _ hr hr'
    exact (C122_jwt x T s' header' body' rest' hb' bb' hs' hh' hbb').1 text (h3 hn hb' ht hl)

namespace Ex

/-- The three octets are needed: four digits are asked for at once. -/
example : bodyReport Ex.ext texts (utf8Encode (str! "{\"aud\":\"\\uxyz\"}")) =
      some (str! "invalid escape at line 1 column 11") ∧
    bodyReport Ex.ext texts (utf8Encode (str! "{\"aud\":\"\\uxyz")) = some (str! "EOF while parsing a string at line 1 column 13") := by
  decide +kernel

/-- So is the one octet behind the place. -/
example : bodyReport Ex.ext texts (utf8Encode (str! "{\"aud\":5,     ")) =
      some (str! "invalid type: integer `5`, expected a string at line 1 column 8") ∧
    bodyReport Ex.ext texts (utf8Encode (str! "{\"aud\":56     ")) =
      some (str! "invalid type: integer `56`, expected a string at line 1 column 9") := by
  decide +kernel

example : bodyReport Ex.ext texts (utf8Encode (str! "{\"aud\":5,\"iat\":true}")) =
    bodyReport Ex.ext texts (utf8Encode (str! "{\"aud\":5,.}}}}}")) := by
  decide +kernel

/-- A numeric date, whatever follows. -/
example (b' : Bytes) (h : 3 ≤ b'.length) : bodyReport Ex.ext texts (utf8Encode (str! "{\"iat\":1,") ++ b') = some (str!
    "invalid type: integer `1`, expected an RFC 3339 formatted date and time string at line 1 column 8") := by
  have e : bodyReport Ex.ext texts (utf8Encode (str! "{\"iat\":1,") ++ [0x20]) = some (str!
    "invalid type: integer `1`, expected an RFC 3339 formatted date and time string at line 1 column 8") := by
    decide +kernel
  obtain ⟨text, h1, h2⟩ := numeric_date [0x20]
  obtain ⟨m, n, h3, h4⟩ := C134_body Ex.ext texts _ _ h1
  obtain ⟨-, rfl⟩ := C134_place _ _ _ _ _ _ h2 h3
  rw [← e, h1]
  refine h4 (by decide) _ ?_ (by
    rw [List.length_append, show (utf8Encode (str! "{\"iat\":1,")).length = 9 by decide]
    omega)
  rw [List.take_left' (by decide), List.take_left' (by decide)]

/-- The headers `{"typ":5}` and `{"typ":5}` with white space behind it. -/
example : ProofJwt.fromStr (withJson Ex.ext texts) (str! "eyJ0eXAiOjV9ICAg.e30.c2ln") =
    .err (.any (str! "invalid type: integer `5`, expected a string at line 1 column 8")) :=
  C134_jwt Ex.ext texts (str! "eyJ0eXAiOjV9.e30") _ (str! "eyJ0eXAiOjV9") (str! "eyJ0eXAiOjV9ICAg") (str! "e30") (str! "e30") []
    [str! "c2ln"] (utf8Encode (str! "{\"typ\":5}")) (utf8Encode (str! "{\"typ\":5}   ")) [0x7b, 0x7d] [0x7b, 0x7d]
    (str! "invalid type: integer `5`, expected a string") _ 8 (by decide +kernel)
    ((C44_base64url_rfc4648 _ _).1.1 (by decide +kernel)) ((C44_base64url_rfc4648 _ _).1.1 (by decide +kernel))
    (by decide +kernel) ((C44_base64url_rfc4648 _ _).1.1 (by decide +kernel))
    ((C44_base64url_rfc4648 _ _).1.1 (by decide +kernel)) (by decide +kernel)
    (fun h => by
      have := (C122_header texts _).1.2 h
      revert this
      decide +kernel)
    ⟨by decide, 1, 8, _, _, ⟨[], _, rfl, .inl rfl, by decide, rfl, by decide⟩, intText_natDigits 1, intText_natDigits 8, by decide +kernel⟩
    (by decide) (by decide) (by decide)

end Ex
end Oid4vci
