import Verif.Props.Unreadable
import Verif.Lemmas.HeaderReport

/-!
Unreadable headers of proof JWTs (C122): what is said about the first thing that is wrong.
-/

namespace Oid4vci

open Spec Reading
open Json (octets)

theorem header_report {T : Texts} {b : Bytes} {s m r : Str} {l : Nat} (hs : Octets b s)
    (h : document (readHeader T) s = (.err m (some l), r)) :
    ∃ text, headerReport T b = some text ∧ Report b m (b.length - l) text := by
  obtain rfl := Json.octets_iff.1 hs
  have hl := (calm_header T).place _ _ _ _ h
  have hlen : (octets b).length = b.length := by simp [octets]
  refine ⟨_, ?_, display_report (by omega)⟩
  unfold headerReport report
  rw [h]

/-- C122. `typ` or else `alg` missing from a header with nothing else wrong is named; the place is the end of the object.
What follows the object plays no part. -/
theorem C122_header_missing (T : Texts) (b : Bytes) (kvs : List (Str × Json)) (w u t rest k : Str)
    (before after : List Str) (hb : Octets b (w ++ (t ++ rest))) (hw : Ws w) (hu : ValueText (.obj kvs) u)
    (hd : depth (.obj kvs) ≤ 127) (ht : Utf8Text u t) (hv : ∀ p ∈ kvs, HeaderValue p.1 p.2)
    (hc : ∀ k ∈ typAlg, (kvs.map Prod.fst).count k ≤ 1)
    (hl : [str! "typ", str! "alg"] = before ++ k :: after)
    (hbefore : ∀ k' ∈ before, k' ∈ kvs.map Prod.fst) (hk : k ∉ kvs.map Prod.fst) :
    ∃ text, headerReport T b = some text ∧
      Report b (str! "missing field `" ++ k ++ str! "`") (w.length + t.length) text := by
  obtain ⟨r, h⟩ := header_missing_run (T := T) (rest := rest) hw hu hd ht hv hc hl hbefore hk
  obtain ⟨text, h1, h2⟩ := header_report hb h
  refine ⟨text, h1, ?_⟩
  have hlen := octets_length hb
  simp only [List.length_append] at hlen
  rw [show b.length - rest.length = w.length + t.length by omega] at h2
  exact h2

/-- C122. A second `typ` or `alg` is named; the place is behind its second name. -/
theorem C122_header_duplicate (T : Texts) (b : Bytes) (kvs : List (Str × Json)) (t k n s w rest : Str)
    (hb : Octets b (t ++ (s ++ (w ++ ':' :: rest)))) (ht : HeaderStart kvs t) (hk : k ∈ typAlg)
    (hin : k ∈ kvs.map Prod.fst) (hn : StringText k n) (hs : Utf8Text n s) (hw : Ws w) :
    ∃ text, headerReport T b = some text ∧
      Report b (str! "duplicate field `" ++ k ++ str! "`") (t.length + s.length + w.length) text := by
  obtain ⟨u, hu, rfl⟩ := hn
  obtain rfl := Json.utf8Text_iff.1 hs
  rw [Json.wide_quoted] at *
  have e : t ++ ('"' :: (Json.wide u ++ ['"']) ++ (w ++ ':' :: rest)) =
      t ++ '"' :: (Json.wide u ++ '"' :: (w ++ ':' :: rest)) := by simp
  obtain ⟨r, h⟩ := header_start_run (T := T) ht (fun m b w1 w2 hw1 hw2 => lead_duplicate (r := w ++ ':' :: rest) m
    (typAlg_iff.2 hk) (mem_seenAfter.2 (.inr ⟨typAlg_iff.2 hk, hin⟩)) hw1 hw2 hu)
  have hend : (endMap (w ++ ':' :: rest)).2 = ':' :: rest := by
    unfold endMap
    rw [bind_ok (got_ws _), skipWs_char hw (by decide)]
    rfl
  rw [Option.getD_none, hend, ← e] at h
  obtain ⟨text, h1, h2⟩ := header_report hb h
  refine ⟨text, h1, ?_⟩
  have hlen := octets_length hb
  simp only [List.length_append, List.length_cons] at hlen h2 ⊢
  rw [show b.length - (rest.length + 1) = t.length + ((Json.wide u).length + ([] : Str).length + 1 + 1) + w.length by
    simp; simp at hlen; omega] at h2
  exact h2

/-- Something wrong with the value of `typ` or `alg`. -/
theorem header_value {T : Texts} {b : Bytes} {kvs : List (Str × Json)} {t k n s w rest m r' : Str} {l : Nat}
    {f : Reader Json} (hb : Octets b (t ++ (s ++ (w ++ ':' :: rest)))) (ht : HeaderStart kvs t)
    (hk : headerField T k = some f) (hin : k ∉ kvs.map Prod.fst) (hn : StringText k n) (hs : Utf8Text n s) (hw : Ws w)
    (hf : f rest = (.err m (some l), r')) :
    ∃ text, headerReport T b = some text ∧ Report b m (b.length - l) text := by
  obtain ⟨q, hq, rfl⟩ := hn
  obtain rfl := Json.utf8Text_iff.1 hs
  rw [Json.wide_quoted] at *
  have e : t ++ ('"' :: (Json.wide q ++ ['"']) ++ (w ++ ':' :: rest)) =
      t ++ '"' :: (Json.wide q ++ '"' :: (w ++ ':' :: rest)) := by simp
  obtain ⟨r, h⟩ := header_start_run (T := T) ht (fun m b w1 w2 hw1 hw2 => lead_value m hk
    (fun hm => (mem_seenAfter.1 hm).elim (by simp) fun h => hin h.2) hw1 hw2 hq hw hf)
  rw [Option.getD_some, ← e] at h
  exact header_report hb h

/-- C122. A `typ` that is not a string is called what it is. -/
theorem C122_header_typ (T : Texts) (b : Bytes) (kvs : List (Str × Json)) (t n s w w' u y c rest : Str) (v : Json)
    (hb : Octets b (t ++ (s ++ (w ++ ':' :: (w' ++ (y ++ rest)))))) (ht : HeaderStart kvs t)
    (hin : str! "typ" ∉ kvs.map Prod.fst) (hn : StringText (str! "typ") n) (hs : Utf8Text n s) (hw : Ws w) (hw' : Ws w')
    (hv : ValueText v u) (hy : Utf8Text u y) (hc : Called v c) (hrest : AfterValue rest) :
    ∃ text, headerReport T b = some text ∧
      Report b (str! "invalid type: " ++ c ++ str! ", expected a string")
        (t.length + s.length + w.length + 1 + w'.length + readBefore v y) text := by
  obtain rfl := Json.utf8Text_iff.1 hy
  have hr : Json.Ends rest := by
    intro x hx
    have := hrest x hx
    simp only [List.mem_cons, List.not_mem_nil, or_false] at this
    rcases this with rfl | rfl | rfl | rfl | rfl | rfl <;> decide
  obtain ⟨r', h, hl⟩ := visitStr_wrong T (str! "a string") (fun s => pure (.str s) : Str → Reader Json) hw' hc hv hr
  obtain ⟨text, h1, h2⟩ := header_value (T := T) (f := readText T) hb ht rfl hin hn hs hw h
  refine ⟨text, h1, ?_⟩
  have hlen := octets_length hb
  simp only [List.length_append, List.length_cons] at hlen hl ⊢
  rw [show b.length - r'.length = t.length + s.length + w.length + 1 + w'.length + readBefore v (Json.wide u) by
    omega] at h2
  simpa [invalidType] using h2

/-- C122. An `alg` that names no algorithm of the list is reported with the whole list; the place is behind it. -/
theorem C122_header_alg (T : Texts) (b : Bytes) (kvs : List (Str × Json)) (t n s w w' a u y rest : Str)
    (hb : Octets b (t ++ (s ++ (w ++ ':' :: (w' ++ (y ++ rest)))))) (ht : HeaderStart kvs t)
    (hin : str! "alg" ∉ kvs.map Prod.fst) (hn : StringText (str! "alg") n) (hs : Utf8Text n s) (hw : Ws w) (hw' : Ws w')
    (hu : StringText a u) (hy : Utf8Text u y) (ha : a ∉ algorithmNames.map Prod.snd) :
    ∃ text, headerReport T b = some text ∧
      Report b (str! "unknown variant `" ++ a ++ str! "`, expected " ++ algorithmList)
        (t.length + s.length + w.length + 1 + w'.length + y.length) text := by
  obtain ⟨p, hp, rfl⟩ := hu
  obtain rfl := Json.utf8Text_iff.1 hy
  rw [Json.wide_quoted] at *
  have e : '"' :: (Json.wide p ++ ['"']) ++ rest = '"' :: (Json.wide p ++ '"' :: rest) := by simp
  rw [e] at hb
  have hnames : algNames = algorithmNames.map Prod.snd := by decide
  rw [← hnames] at ha
  obtain ⟨text, h1, h2⟩ := header_value (T := T) (f := variant T algNames) hb ht rfl hin hn hs hw
    (variant_unknown T (r := rest) hw' hp ha)
  refine ⟨text, h1, ?_⟩
  have hlen := octets_length hb
  simp only [List.length_append, List.length_cons, List.length_nil] at hlen ⊢
  rw [show b.length - rest.length = t.length + s.length + w.length + 1 + w'.length + ((Json.wide p).length + (0 + 1) + 1) by
    omega] at h2
  rw [unknownVariant, oneOf_algorithms] at h2
  exact h2

/-- C122. An `alg` that is neither a string nor an object is not called anything; the place is behind its first
octet. -/
theorem C122_header_alg_kind (T : Texts) (b : Bytes) (kvs : List (Str × Json)) (t n s w w' u y rest : Str) (v : Json)
    (hb : Octets b (t ++ (s ++ (w ++ ':' :: (w' ++ (y ++ rest)))))) (ht : HeaderStart kvs t)
    (hin : str! "alg" ∉ kvs.map Prod.fst) (hn : StringText (str! "alg") n) (hs : Utf8Text n s) (hw : Ws w) (hw' : Ws w')
    (hv : ValueText v u) (hy : Utf8Text u y) (hstr : ∀ a, v ≠ .str a) (hobj : ∀ kvs, v ≠ .obj kvs) :
    ∃ text, headerReport T b = some text ∧
      Report b (str! "expected value") (t.length + s.length + w.length + 1 + w'.length + 1) text := by
  obtain rfl := Json.utf8Text_iff.1 hy
  obtain ⟨r', h⟩ := variant_wrong T (r := rest) hw' hv hstr hobj
  obtain ⟨text, h1, h2⟩ := header_value (T := T) (f := variant T algNames) hb ht rfl hin hn hs hw h
  refine ⟨text, h1, ?_⟩
  have hlen := octets_length hb
  obtain ⟨x, t', hx, -, -⟩ := val_cons (d := depth v) ⟨u, hv, Nat.le_refl _, rfl⟩
  simp only [hx, List.length_append, List.length_cons] at hlen h2 ⊢
  rw [show b.length - (t'.length + 1 + rest.length - 1) = t.length + s.length + w.length + 1 + w'.length + 1 by
    omega] at h2
  exact h2

namespace Ex

/-- A member `typ`. -/
theorem type_member : MemberText (str! "typ") (.str (str! "x")) (str! "\"typ\":\"x\"") :=
  .mk _ _ (str! "\"typ\"") [] [] (str! "\"x\"") ⟨_, plain (str! "typ") (by decide), rfl⟩ Ws.nil Ws.nil
    (.string (str! "x") _ ⟨_, plain (str! "x") (by decide), rfl⟩)

theorem type_value : HeaderValue (str! "typ") (.str (str! "x")) :=
  ⟨fun _ => ⟨_, rfl⟩, fun h => absurd h (by decide)⟩

theorem type_start : HeaderStart [(str! "typ", .str (str! "x"))] (str! "{\"typ\":\"x\",") :=
  .member [] ['{'] _ _ _ (str! "\"typ\":\"x\"") [] [] (.brace [] [] Ws.nil Ws.nil) type_member (by decide)
    (Json.utf8Text_iff.2 (by decide)) type_value (by simp) Ws.nil Ws.nil

/-- A header without an algorithm. -/
example : ∃ text, headerReport texts (utf8Encode (str! "{\"typ\":\"x\"}")) = some text ∧
    Report (utf8Encode (str! "{\"typ\":\"x\"}")) (str! "missing field `alg`") 11 text :=
  C122_header_missing texts _ [(str! "typ", .str (str! "x"))] [] (str! "{\"typ\":\"x\"}") (str! "{\"typ\":\"x\"}") []
    (str! "alg") [str! "typ"] [] (Json.octets_iff.2 (by decide)) Ws.nil
    (.object _ _ _ [] (str! "\"typ\":\"x\"") ['}'] Ws.nil type_member (.close [] Ws.nil)) (by decide)
    (Json.utf8Text_iff.2 (by decide)) (by intro p hp; cases List.mem_singleton.1 hp; exact type_value) (by decide) rfl
    (by decide) (by decide)

/-- A second type. -/
example : ∃ text, headerReport texts (utf8Encode (str! "{\"typ\":\"x\",\"typ\":1}")) = some text ∧
    Report (utf8Encode (str! "{\"typ\":\"x\",\"typ\":1}")) (str! "duplicate field `typ`") 16 text :=
  C122_header_duplicate texts _ _ _ (str! "typ") (str! "\"typ\"") (str! "\"typ\"") [] (str! "1}")
    (Json.octets_iff.2 (by decide)) type_start (by decide) (by decide) ⟨_, plain (str! "typ") (by decide), rfl⟩
    (Json.utf8Text_iff.2 (by decide)) Ws.nil

/-- A numeric type. -/
example (b' : Bytes) : ∃ text, headerReport texts (utf8Encode (str! "{\"typ\":1,") ++ b') = some text ∧
    Report (utf8Encode (str! "{\"typ\":1,") ++ b') (str! "invalid type: integer `1`, expected a string") 8 text :=
  C122_header_typ texts _ [] ['{'] (str! "\"typ\"") (str! "\"typ\"") [] [] (str! "1") (str! "1") (str! "integer `1`")
    (',' :: octets b') (.num 1) (Json.octets_iff.2 (by simp only [octets, List.map_append]; rfl)) (.brace [] [] Ws.nil Ws.nil)
    (by decide) ⟨_, plain (str! "typ") (by decide), rfl⟩ (Json.utf8Text_iff.2 (by decide)) Ws.nil Ws.nil one
    (Json.utf8Text_iff.2 (by decide)) (.integer 1 (str! "1") (Json.integerText_iff.2 (by decide)))
    (by intro c hc; cases hc; decide)

/-- An algorithm of JOSE that the code does not know. -/
example : ∃ text, headerReport texts (utf8Encode (str! "{\"typ\":\"x\",\"alg\":\"Ed25519\"}")) = some text ∧
    Report (utf8Encode (str! "{\"typ\":\"x\",\"alg\":\"Ed25519\"}"))
      (str! "unknown variant `Ed25519`, expected " ++ algorithmList) 26 text :=
  C122_header_alg texts _ _ _ (str! "\"alg\"") (str! "\"alg\"") [] [] (str! "Ed25519") (str! "\"Ed25519\"")
    (str! "\"Ed25519\"") ['}'] (Json.octets_iff.2 (by decide)) type_start (by decide)
    ⟨_, plain (str! "alg") (by decide), rfl⟩ (Json.utf8Text_iff.2 (by decide)) Ws.nil Ws.nil
    ⟨_, plain (str! "Ed25519") (by decide), rfl⟩ (Json.utf8Text_iff.2 (by decide)) (by decide)

/-- A number as in COSE. -/
example : ∃ text, headerReport texts (utf8Encode (str! "{\"typ\":\"x\",\"alg\":1}")) = some text ∧
    Report (utf8Encode (str! "{\"typ\":\"x\",\"alg\":1}")) (str! "expected value") 18 text :=
  C122_header_alg_kind texts _ _ _ (str! "\"alg\"") (str! "\"alg\"") [] [] (str! "1") (str! "1")
    ['}'] (.num 1) (Json.octets_iff.2 (by decide)) type_start (by decide)
    ⟨_, plain (str! "alg") (by decide), rfl⟩ (Json.utf8Text_iff.2 (by decide)) Ws.nil Ws.nil one
    (Json.utf8Text_iff.2 (by decide)) (by simp) (by simp)

end Ex

end Oid4vci
