import Verif.Props.HeaderReport
import Verif.Lemmas.DocumentReport

/-!
Headers and bodies of proof JWTs that are no objects (C132): they are called what they are, strings are repeated in
quotes, and of an array it is said what is wrong with it.
-/

namespace Oid4vci

open Spec Reading
open Json (octets natDigits)

/-- C132. Strings are quoted as `QuotedText` says, which is for each string one text. -/
theorem C132_quoted (plain : Char → Bool) (s t : Str) :
    Debug.string plain s = t ↔ QuotedText (fun c => plain c = true) s t :=
  ⟨fun h => Debug.string_iff.2 h.symm, fun h => (Debug.string_iff.1 h).symm⟩

/-- C132. A quoted string determines the string, and where it ends, even for a reader who does not know which
characters the writer shows. So nobody can pass off part of a string as part of the report. -/
theorem C132_determined (plain plain' : Char → Bool) (s s' r r' : Str)
    (h : Debug.string plain s ++ r = Debug.string plain' s' ++ r') : s = s' ∧ r = r' := by
  obtain ⟨ps, h1, e1⟩ := (C132_quoted plain s _).1 rfl
  obtain ⟨ps', h1', e1'⟩ := (C132_quoted plain' s' _).1 rfl
  rw [e1, e1'] at h
  simp only [List.append_assoc, List.cons_append, List.nil_append, List.cons.injEq, true_and] at h
  exact Debug.quoted_inj h1 h1' h

/-- C132. A quoted string consists of printable ASCII characters and of characters that are shown. If no line breaks
and other controls are shown, as in every version of Unicode, it has none. -/
theorem C132_visible (plain : Char → Bool) (s : Str) (c : Char) (h : c ∈ Debug.string plain s) :
    (0x20 ≤ c.toNat ∧ c.toNat ≤ 0x7E) ∨ (plain c = true ∧ c ∈ s) := by
  obtain ⟨ps, h1, e⟩ := (C132_quoted plain s _).1 rfl
  rw [e] at h
  simp only [List.mem_append, List.mem_singleton, List.mem_flatten] at h
  rcases h with (rfl | ⟨p, hp, hc⟩) | rfl
  · left; decide
  · have : ∃ d ∈ s, QuotedChar (fun c => plain c = true) d p := by
      clear e
      induction h1 with
      | nil => cases hp
      | cons hd _ ih =>
        rcases List.mem_cons.1 hp with rfl | hp
        · exact ⟨_, by simp, hd⟩
        · obtain ⟨d, h, h'⟩ := ih hp
          exact ⟨d, by simp [h], h'⟩
    obtain ⟨d, hds, hd⟩ := this
    cases hd with
    | letter e he =>
      left
      have : ∀ p ∈ letterEscapes, 0x20 ≤ p.1.toNat ∧ p.1.toNat ≤ 0x7E := by decide
      simp only [List.mem_cons, List.not_mem_nil, or_false] at hc
      rcases hc with rfl | rfl
      · decide
      · exact this _ he
    | shown _ hp' =>
      simp only [List.mem_singleton] at hc
      subst hc
      exact .inr ⟨hp', hds⟩
    | number t _ _ ht =>
      left
      have hx : ∀ x ∈ lowerHex.map Prod.fst, 0x20 ≤ x.toNat ∧ x.toNat ≤ 0x7E := by decide
      rw [Debug.hexText_iff.1 ht] at hc
      simp only [List.mem_append, List.mem_cons, List.not_mem_nil, or_false] at hc
      rcases hc with ((rfl | rfl | rfl) | hc) | rfl
      · decide
      · decide
      · decide
      · exact hx c (Debug.hex_chars hc)
      · decide
  · left; decide

theorem afterValue_ends {rest : Str} (h : AfterValue rest) : Json.Ends rest := by
  intro x hx
  have := h x hx
  simp only [List.mem_cons, List.not_mem_nil, or_false] at this
  rcases this with rfl | rfl | rfl | rfl | rfl | rfl <;> decide

/-- C132. A header that is no object is called what it is. The place is behind a literal, number or string, and in
front of an array. -/
theorem C132_header (T : Texts) (plain : Char → Bool) (b : Bytes) (w u y c rest : Str) (v : Json)
    (hb : Octets b (w ++ (y ++ rest))) (hw : Ws w) (hv : ValueText v u) (hy : Utf8Text u y)
    (hc : CalledDocument (fun c => plain c = true) v c) (hrest : AfterValue rest) (hobj : ∀ kvs, v ≠ .obj kvs) :
    ∃ text, headerReport (T.withDebug plain) b = some text ∧
      Report b (str! "invalid type: " ++ c ++ str! ", expected struct ProofJwtHeader")
        (w.length + readBefore v y) text := by
  obtain rfl := Json.utf8Text_iff.1 hy
  obtain ⟨r', h, hl⟩ := header_kind_run T plain hw hc hv (afterValue_ends hrest) hobj
  obtain ⟨text, h1, h2⟩ := header_report hb h
  refine ⟨text, h1, ?_⟩
  have hlen := octets_length hb
  simp only [List.length_append] at hlen hl
  rw [show b.length - r'.length = w.length + readBefore v (Json.wide u) by omega] at h2
  simpa [invalidType] using h2

/-- C132. So is a body that is neither an object nor an array. -/
theorem C132_body (x : Ext) (T : Texts) (plain : Char → Bool) (b : Bytes) (w u y c rest : Str) (v : Json)
    (hb : Octets b (w ++ (y ++ rest))) (hw : Ws w) (hv : ValueText v u) (hy : Utf8Text u y)
    (hc : CalledDocument (fun c => plain c = true) v c) (hrest : AfterValue rest) (hobj : ∀ kvs, v ≠ .obj kvs)
    (harr : ∀ xs, v ≠ .arr xs) :
    ∃ text, bodyReport x (T.withDebug plain) b = some text ∧
      Report b (str! "invalid type: " ++ c ++ str! ", expected struct ProofJwtBody") (w.length + y.length) text := by
  obtain rfl := Json.utf8Text_iff.1 hy
  obtain ⟨r', h, hl⟩ := body_kind_run x T plain hw hc hv (afterValue_ends hrest) hobj harr
  obtain ⟨text, h1, h2⟩ := body_report hb h
  refine ⟨text, h1, ?_⟩
  have hlen := octets_length hb
  have : readBefore v (Json.wide u) = (Json.wide u).length := by
    cases v with
    | arr xs => exact absurd rfl (harr xs)
    | obj kvs => exact absurd rfl (hobj kvs)
    | _ => rfl
  simp only [List.length_append] at hlen hl
  rw [show b.length - r'.length = w.length + (Json.wide u).length by omega] at h2
  simpa [invalidType] using h2

/-- C132. A body that is an array with fewer than seven elements, each of which is what the claim in its place has to
be, is reported with their number; the place is behind the bracket. -/
theorem C132_short (x : Ext) (T : Texts) (b : Bytes) (vs : List Json) (t w rest n : Str)
    (hb : Octets b (t ++ (w ++ ']' :: rest))) (ht : ArrayStart x vs t) (hw : Ws w) (hl : vs.length < 7)
    (hn : IntText vs.length n) :
    ∃ text, bodyReport x T b = some text ∧
      Report b (str! "invalid length " ++ n ++ str! ", expected struct ProofJwtBody with 7 elements")
        (t.length + w.length + 1) text := by
  obtain ⟨w0, s0, hw0, rfl, hrun⟩ := array_start_err (T := T) ht
  obtain ⟨k, hk⟩ : ∃ k, claimNames[vs.length]? = some k := ⟨_, List.getElem?_eq_getElem (by simpa [claimNames] using hl)⟩
  obtain ⟨f, -, e⟩ := elements_drop x T hk
  have h := hrun (w ++ ']' :: rest) (str! "invalid length " ++ natDigits vs.length ++ str! ", expected struct " ++
      str! "ProofJwtBody" ++ str! " with " ++ natDigits 7 ++ str! " elements") none (']' :: rest)
    (fun _ => Json.ws_ends hw (by decide)) (by
      rw [e, visitSeq]
      rw [bind_ok (nextItem_false _ hw rest)]
      rfl)
  obtain ⟨r', h⟩ := array_run (x := x) (T := T) hw0 h
  have hend : (endSeq (']' :: rest)).2 = rest := by
    have : endSeq (']' :: rest) = (.ok (), rest) := got_eq_some.1 (endSeq_complete Ws.nil rest)
    rw [this]
  rw [Option.getD_none, hend] at h
  obtain ⟨text, h1, h2⟩ := body_report (by simpa using hb) h
  refine ⟨text, h1, ?_⟩
  have hlen := octets_length hb
  simp only [List.length_append, List.length_cons] at hlen ⊢
  rw [show b.length - rest.length = w0.length + (s0.length + 1) + w.length + 1 by omega] at h2
  obtain ⟨n1, n2, n3, n4⟩ := Json.intText_iff.1 hn
  rw [n4, Json.natDigits_digitsVal n2 n1 fun h => Classical.byContradiction fun h' => n3 ⟨h, h'⟩] at h2
  simpa [show natDigits 7 = ['7'] from by decide] using h2

/-- C132. An element that is not a string is reported like the claim of its place. -/
theorem C132_element (x : Ext) (T : Texts) (b : Bytes) (vs : List Json) (t w w' u y c k rest : Str) (v : Json)
    (hb : Octets b (t ++ (w ++ ((if vs = [] then [] else [',']) ++ (w' ++ (y ++ rest)))))) (ht : ArrayStart x vs t)
    (hw : Ws w) (hw' : Ws w') (hv : ValueText v u) (hy : Utf8Text u y) (hc : Called v c)
    (hrest : AfterValue rest ∨ rest.head? = some ']') (hk : claimNames[vs.length]? = some k)
    (hnull : v = .null → k ∉ [str! "iss", str! "sub", str! "nbf", str! "exp"]) :
    ∃ text, bodyReport x T b = some text ∧
      Report b (str! "invalid type: " ++ c ++ str! ", expected " ++
          (if k ∈ [str! "iat", str! "nbf", str! "exp"] then T.timeExpected else str! "a string"))
        (t.length + w.length + (if vs = [] then 0 else 1) + w'.length + readBefore v y) text := by
  obtain rfl := Json.utf8Text_iff.1 hy
  have hr : Json.Ends rest := by
    rcases hrest with h | h
    · exact afterValue_ends h
    · intro z hz
      rw [h] at hz
      cases hz
      decide
  obtain ⟨f, r', hf, hfr, hl⟩ := field_wrong x T (List.mem_of_getElem? hk) Ws.nil hc hv hr hnull
  obtain ⟨w0, s0, hw0, rfl, hrun⟩ := array_start_err (T := T) ht
  obtain ⟨z, t', ht', hc1, hc2, -⟩ := val_cons (d := depth v) (j := v) ⟨u, hv, Nat.le_refl _, rfl⟩
  obtain ⟨f', hf', hstep⟩ := element_run (x := x) (T := T) (t := t' ++ rest) hk hw hw' hc1 hc2
  obtain rfl : f' = f := by rw [hf] at hf'; exact (Option.some.inj hf').symm
  have e : (if vs = [] then [] else [',']) = sep (decide (vs.length = 0)) := by cases vs <;> rfl
  have h := hrun (w ++ ((if vs = [] then [] else [',']) ++ (w' ++ (Json.wide u ++ rest))))
    (invalidType c (expectedOf T k)) (some r'.length) r'
    (fun hne => by rw [if_neg hne]; exact Json.ws_ends hw (by decide))
    (by
      rw [e, ht', List.cons_append, hstep, ← List.cons_append, ← ht']
      exact bind_err hfr)
  obtain ⟨r'', h⟩ := array_run (x := x) (T := T) hw0 h
  rw [Option.getD_some] at h
  obtain ⟨text, h1, h2⟩ := body_report (by simpa using hb) h
  refine ⟨text, h1, ?_⟩
  have hlen := octets_length hb
  have hsep : ((if vs = [] then [] else [',']) : Str).length = if vs = [] then 0 else 1 := by split <;> rfl
  simp only [List.length_append, List.length_cons] at hlen hl ⊢
  rw [hsep] at hlen
  rw [show b.length - r'.length = w0.length + (s0.length + 1) + w.length + (if vs = [] then 0 else 1) + w'.length +
    readBefore v (Json.wide u) by omega] at h2
  exact h2

/-- C132. So is an element that should be a date-time and is a string that is none. -/
theorem C132_element_time (x : Ext) (T : Texts) (b : Bytes) (vs : List Json) (t w w' v u y k rest : Str)
    (hb : Octets b (t ++ (w ++ ((if vs = [] then [] else [',']) ++ (w' ++ (y ++ rest)))))) (ht : ArrayStart x vs t)
    (hw : Ws w) (hw' : Ws w') (hv : StringText v u) (hy : Utf8Text u y) (hk : claimNames[vs.length]? = some k)
    (htime : k ∈ [str! "iat", str! "nbf", str! "exp"]) (hp : x.parseTime v = none) :
    ∃ text, bodyReport x T b = some text ∧
      Report b (T.time v) (t.length + w.length + (if vs = [] then 0 else 1) + w'.length + y.length) text := by
  obtain ⟨q, hq, rfl⟩ := hv
  obtain rfl := Json.utf8Text_iff.1 hy
  simp only [Json.wide_quoted] at *
  obtain ⟨f, hf, hfr⟩ := field_time x T (r := rest) htime Ws.nil hq hp
  obtain ⟨w0, s0, hw0, rfl, hrun⟩ := array_start_err (T := T) ht
  obtain ⟨f', hf', hstep⟩ := element_run (x := x) (T := T) (c := '"') (t := Json.wide q ++ '"' :: rest) hk hw hw'
    (by decide) (by decide)
  obtain rfl : f' = f := by rw [hf] at hf'; exact (Option.some.inj hf').symm
  have e : (if vs = [] then [] else [',']) = sep (decide (vs.length = 0)) := by cases vs <;> rfl
  have h := hrun (w ++ ((if vs = [] then [] else [',']) ++ (w' ++ '"' :: (Json.wide q ++ '"' :: rest))))
    (T.time v) (some rest.length) rest
    (fun hne => by rw [if_neg hne]; exact Json.ws_ends hw (by decide))
    (by rw [e, hstep]; exact bind_err hfr)
  obtain ⟨r'', h⟩ := array_run (x := x) (T := T) hw0 h
  rw [Option.getD_some] at h
  obtain ⟨text, h1, h2⟩ := body_report (by simpa using hb) h
  refine ⟨text, h1, ?_⟩
  have hlen := octets_length hb
  have hsep : ((if vs = [] then [] else [',']) : Str).length = if vs = [] then 0 else 1 := by split <;> rfl
  simp only [List.length_append, List.length_cons, List.length_nil] at hlen ⊢
  rw [hsep] at hlen
  rw [show b.length - rest.length = w0.length + (s0.length + 1) + w.length + (if vs = [] then 0 else 1) + w'.length +
    ((Json.wide q).length + (0 + 1) + 1) by omega] at h2
  exact h2

/-- C132. An array of seven elements that does not end is reported: a comma in front of the bracket, or an eighth
element. The place is behind the octet that follows the comma. -/
theorem C132_long (x : Ext) (T : Texts) (b : Bytes) (vs : List Json) (t w w' rest : Str) (c : Char)
    (hb : Octets b (t ++ (w ++ ',' :: (w' ++ c :: rest)))) (ht : ArrayStart x vs t) (hl : vs.length = 7) (hw : Ws w)
    (hw' : Ws w') (hc : c ∉ [' ', '\t', '\n', '\r']) :
    ∃ text, bodyReport x T b = some text ∧
      Report b (if c = ']' then str! "trailing comma" else str! "trailing characters")
        (t.length + w.length + 1 + w'.length + 1) text := by
  obtain ⟨w0, s0, hw0, rfl, hrun⟩ := array_start (T := T) ht
  have hws : Json.isWs c = false := by
    simp only [List.mem_cons, List.not_mem_nil, or_false, not_or] at hc
    simp [Json.isWs, hc]
  have h := hrun (w ++ ',' :: (w' ++ c :: rest)) (fun _ => Json.ws_ends hw (by decide))
  rw [hl] at h
  have hnil : (elements x T).drop 7 = [] := rfl
  rw [hnil] at h
  have h' : endSeq (w ++ ',' :: (w' ++ c :: rest)) =
      (.err (if c = ']' then str! "trailing comma" else str! "trailing characters") (some rest.length), c :: rest) := by
    unfold endSeq
    rw [bind_ok (got_ws _), skipWs_char hw (by decide)]
    simp only [List.head?_cons]
    rw [if_neg (by decide), if_pos trivial, bind_ok (got_eat _), List.tail_cons, bind_ok (got_ws _), skipWs_char hw' hws]
    simp only [List.head?_cons]
    split <;> rfl
  have h := array_run_close (x := x) (T := T) (vs := vs ++ []) hw0 h h'
  obtain ⟨text, h1, h2⟩ := body_report (by simpa using hb) h
  refine ⟨text, h1, ?_⟩
  have hlen := octets_length hb
  simp only [List.length_append, List.length_cons] at hlen ⊢
  rw [show b.length - rest.length = w0.length + (s0.length + 1) + w.length + 1 + w'.length + 1 by omega] at h2
  exact h2

/-- C132. How strings are quoted has no influence on what is said of times: a time that cannot be read is reported
as chrono does, and what is no string is told what chrono expects. -/
theorem C132_times (x : Ext) (T : Texts) (plain : Char → Bool) (b : Bytes) (kvs : List (Str × Json))
    (t k n s w w' u y rest : Str) (v : Json)
    (hb : Octets b (t ++ (s ++ (w ++ ':' :: (w' ++ (y ++ rest)))))) (ht : BodyStart x kvs t)
    (hk : k ∈ [str! "iat", str! "nbf", str! "exp"]) (hin : k ∉ kvs.map Prod.fst) (hn : StringText k n)
    (hs : Utf8Text n s) (hw : Ws w) (hw' : Ws w') (hv : ValueText v u) (hy : Utf8Text u y) (hrest : AfterValue rest) :
    (∀ a, v = .str a → StringText a u → x.parseTime a = none → ∃ text, bodyReport x (T.withDebug plain) b = some text ∧
      Report b (T.time a) (t.length + s.length + w.length + 1 + w'.length + y.length) text) ∧
    (∀ c, Called v c → v ≠ .null → ∃ text, bodyReport x (T.withDebug plain) b = some text ∧
      Report b (str! "invalid type: " ++ c ++ str! ", expected " ++ T.timeExpected)
        (t.length + s.length + w.length + 1 + w'.length + readBefore v y) text) := by
  constructor
  · rintro a rfl ha hp
    exact C122_time x (T.withDebug plain) b kvs t k n s w w' a u y rest hb ht hk hin hn hs hw hw' ha hy hp
  · intro c hc hnull
    have hk' : k ∈ claimNames := by
      simp only [List.mem_cons, List.not_mem_nil, or_false] at hk
      rcases hk with rfl | rfl | rfl <;> decide
    have := C122_mistyped x (T.withDebug plain) b kvs t k n s w w' u y c rest v hb ht hk' hin hn hs hw hw' hv hy hc hrest
      fun h => absurd h hnull
    rw [if_pos hk] at this
    exact this

namespace Ex

/-- Printable ASCII and Latin-1, without the soft hyphen. -/
def shown (c : Char) : Bool :=
  (0x20 ≤ c.toNat && c.toNat ≤ 0x7E) || (0xA1 ≤ c.toNat && c.toNat ≤ 0xFF && c.toNat ≠ 0xAD)

example : Debug.string shown (str! "it's \"\\é\n\x00\x1b​") = str! "\"it's \\\"\\\\é\\n\\0\\u{1b}\\u{200b}\"" := by
  decide +kernel

/-- The same string as another version of Unicode has it, in longer texts. -/
example : ∀ r r', Debug.string shown (str! "é") ++ r = Debug.string (fun _ => false) (str! "é") ++ r' → r = r' :=
  fun r r' h => (C132_determined _ _ _ _ r r' h).2
example : Debug.string shown (str! "é") ≠ Debug.string (fun _ => false) (str! "é") := by decide +kernel

/-- No string has a line break when quoted. -/
example (s : Str) : '\n' ∉ Debug.string shown s := fun h =>
  (C132_visible shown s _ h).elim (fun h => absurd h (by decide)) fun h => absurd h.1 (by decide)

/-- Some reports. -/
example : headerReport (texts.withDebug shown) (utf8Encode (str! " \"a\\u000ab\" x")) =
    some (str! "invalid type: string \"a\\nb\", expected struct ProofJwtHeader at line 1 column 11") := by decide +kernel
example : bodyReport Ex.ext (texts.withDebug shown) (utf8Encode (str! "-1.50")) =
    some (str! "invalid type: floating point `-1.5`, expected struct ProofJwtBody at line 1 column 5") := by decide +kernel
example : bodyReport Ex.ext texts (utf8Encode (str! "[null,null]")) =
    some (str! "invalid type: null, expected a string at line 1 column 10") := by decide +kernel

theorem quoted_text (v : Str) (h : ∀ c ∈ v, 0x20 ≤ c.toNat ∧ c ≠ '"' ∧ c ≠ '\\') : StringText v ('"' :: (v ++ ['"'])) :=
  ⟨v, plain v h, rfl⟩

/-- A header that is a string, whatever follows after a blank. -/
theorem header_string (b' : Bytes) : ∃ text,
    headerReport (texts.withDebug shown) (utf8Encode (str! "\"a'b\" ") ++ b') = some text ∧
    Report (utf8Encode (str! "\"a'b\" ") ++ b')
      (str! "invalid type: string \"a'b\", expected struct ProofJwtHeader") 5 text :=
  C132_header texts shown _ [] (str! "\"a'b\"") (str! "\"a'b\"") (str! "string \"a'b\"") (' ' :: octets b') (.str (str! "a'b"))
    (by
      refine Json.octets_iff.2 ?_
      simp only [octets, List.map_append]
      rfl)
    Ws.nil (.string _ _ (quoted_text (str! "a'b") (by decide))) (Json.utf8Text_iff.2 (by decide))
    (.string _ _ ((C132_quoted shown _ _).1 (by decide +kernel))) (by intro c hc; cases hc; decide) (by simp)

theorem null_claim {k : Str} (h : k ∉ [str! "aud", str! "nonce"]) (h' : k ≠ str! "iat") : ClaimValue Ex.ext k .null :=
  ⟨fun _ => .inl rfl, fun e => absurd e h, fun e => absurd e h', fun _ => .inl rfl⟩

theorem text_claim {k s : Str} (h : k ∉ [str! "iat", str! "nbf", str! "exp"]) : ClaimValue Ex.ext k (.str s) :=
  ⟨fun _ => .inr ⟨_, rfl⟩, fun _ => ⟨_, rfl⟩, fun e => absurd e (by simp_all), fun e => absurd e (by simp_all)⟩

/-- A body of two elements. -/
theorem array_two : ArrayStart Ex.ext [.null, .str (str! "a")] (str! "[null,\"a\"") :=
  .element [.null] (str! "[null") [] [] (str! "\"a\"") (str! "\"a\"") (str! "aud") (.str (str! "a"))
    (.element [] (str! "[") [] [] (str! "null") (str! "null") (str! "iss") .null (.bracket [] Ws.nil) Ws.nil Ws.nil .null
      (Json.utf8Text_iff.2 (by decide)) rfl (null_claim (by decide) (by decide)))
    Ws.nil Ws.nil (.string _ _ (quoted_text (str! "a") (by decide))) (Json.utf8Text_iff.2 (by decide)) rfl
    (text_claim (by decide))

example : ∃ text, bodyReport Ex.ext texts (utf8Encode (str! "[null,\"a\" ]")) = some text ∧
    Report (utf8Encode (str! "[null,\"a\" ]"))
      (str! "invalid length 2, expected struct ProofJwtBody with 7 elements") 11 text :=
  C132_short Ex.ext texts _ _ _ [' '] [] (str! "2") (Json.octets_iff.2 (by decide)) array_two (fun c hc => by simp_all) (by decide)
    (intText_natDigits 2)

example : ∃ text, bodyReport Ex.ext texts (utf8Encode (str! "[null,\"a\",1]")) = some text ∧
    Report (utf8Encode (str! "[null,\"a\",1]")) (str! "invalid type: integer `1`, expected a string") 11 text :=
  C132_element Ex.ext texts _ _ _ [] [] (str! "1") (str! "1") (str! "integer `1`") (str! "sub") (str! "]") (.num 1)
    (Json.octets_iff.2 (by decide)) array_two Ws.nil Ws.nil one (Json.utf8Text_iff.2 (by decide))
    (.integer 1 (str! "1") (Json.integerText_iff.2 (by decide))) (.inr rfl) rfl (by simp)

theorem array_three : ArrayStart Ex.ext [.null, .str (str! "a"), .null] (str! "[null,\"a\",null") :=
  .element _ _ [] [] (str! "null") (str! "null") (str! "sub") .null array_two Ws.nil Ws.nil .null
    (Json.utf8Text_iff.2 (by decide)) rfl (null_claim (by decide) (by decide))

example : ∃ text, bodyReport Ex.ext texts (utf8Encode (str! "[null,\"a\",null,\"x\"")) = some text ∧
    Report (utf8Encode (str! "[null,\"a\",null,\"x\"")) (str! "input contains invalid characters") 18 text :=
  C132_element_time Ex.ext texts _ _ _ [] [] (str! "x") (str! "\"x\"") (str! "\"x\"") (str! "iat") []
    (Json.octets_iff.2 (by decide)) array_three Ws.nil Ws.nil (quoted_text (str! "x") (by decide))
    (Json.utf8Text_iff.2 (by decide)) rfl (by decide) (by decide +kernel)

/-- All seven elements. -/
theorem array_seven : ArrayStart Ex.ext [.null, .str (str! "a"), .null, .str (str! "1"), .str (str! "n"), .null, .null]
    (str! "[null,\"a\",null,\"1\",\"n\",null,null") :=
  .element _ _ [] [] (str! "null") (str! "null") (str! "exp") .null
    (.element _ _ [] [] (str! "null") (str! "null") (str! "nbf") .null
      (.element _ _ [] [] (str! "\"n\"") (str! "\"n\"") (str! "nonce") (.str (str! "n"))
        (.element _ _ [] [] (str! "\"1\"") (str! "\"1\"") (str! "iat") (.str (str! "1")) array_three Ws.nil Ws.nil
          (.string _ _ (quoted_text (str! "1") (by decide))) (Json.utf8Text_iff.2 (by decide)) rfl
          ⟨fun h => absurd h (by decide), fun h => absurd h (by decide), fun _ => ⟨1, _, rfl, by decide +kernel⟩,
            fun h => absurd h (by decide)⟩)
        Ws.nil Ws.nil (.string _ _ (quoted_text (str! "n") (by decide))) (Json.utf8Text_iff.2 (by decide)) rfl
        (text_claim (by decide)))
      Ws.nil Ws.nil .null (Json.utf8Text_iff.2 (by decide)) rfl (null_claim (by decide) (by decide)))
    Ws.nil Ws.nil .null (Json.utf8Text_iff.2 (by decide)) rfl (null_claim (by decide) (by decide))

example : ∃ text, bodyReport Ex.ext texts (utf8Encode (str! "[null,\"a\",null,\"1\",\"n\",null,null,]")) = some text ∧
    Report (utf8Encode (str! "[null,\"a\",null,\"1\",\"n\",null,null,]")) (str! "trailing comma") 34 text :=
  C132_long Ex.ext texts (utf8Encode (str! "[null,\"a\",null,\"1\",\"n\",null,null,]")) _ _ [] [] [] ']' (Json.octets_iff.2 (by decide)) array_seven rfl Ws.nil Ws.nil (by decide)

/-- A date that is a number, whatever follows. -/
example (b' : Bytes) : ∃ text, bodyReport Ex.ext (texts.withDebug shown) (utf8Encode (str! "{\"iat\":1,") ++ b') = some text ∧
    Report (utf8Encode (str! "{\"iat\":1,") ++ b')
      (str! "invalid type: integer `1`, expected an RFC 3339 formatted date and time string") 8 text :=
  (C132_times Ex.ext texts shown _ [] (str! "{") (str! "iat") (str! "\"iat\"") (str! "\"iat\"") [] [] (str! "1") (str! "1")
    (',' :: octets b') (.num 1)
    (by
      refine Json.octets_iff.2 ?_
      simp only [octets, List.map_append]
      rfl)
    (.brace [] [] Ws.nil Ws.nil) (by decide) (by decide) ⟨_, plain (str! "iat") (by decide), rfl⟩
    (Json.utf8Text_iff.2 (by decide)) Ws.nil Ws.nil one (Json.utf8Text_iff.2 (by decide))
    (by intro c hc; cases hc; decide)).2 _ (.integer 1 (str! "1") (Json.integerText_iff.2 (by decide))) (by simp)

end Ex

end Oid4vci
