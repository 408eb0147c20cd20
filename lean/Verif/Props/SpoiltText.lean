import Verif.Props.Spoilt

/-!
C154, continued: strings that are spoilt in the values of claims and of members the body does not know.
-/

namespace Oid4vci

open Spec Reading
open Json (octets wide)

namespace Reading

theorem settle_placed {α : Type} {f : Reader α} {s r m : Str} {l : Nat} (h : f s = (.err m (some l), r)) :
    settle f s = (.err m (some l), r) := by
  unfold settle
  rw [h]

theorem visitStr_spoilt {α : Type} {T : Texts} {expected : Str} {visit : Str → Reader α} {w v u y m rest : Str} {k : Nat}
    (hw : Ws w) (hu : CharsText v u) (h : Spoilt y k m) (hk : k ≤ rest.length) :
    visitStr T expected visit (w ++ '"' :: (wide u ++ (y ++ rest))) = (.err m (some rest.length), rest) := by
  have hs : string (wide u ++ (y ++ rest)) = (.err m (some rest.length), rest) := by
    unfold string
    refine bind_err ?_
    exact scan_stop hu (scan_spoilt h hk) _ (by simp only [List.length_append]; omega)
  have h1 : (do
      match ← ws with
      | none => ahead eofValue
      | some c =>
        if c = '"' then do
          eat
          let s ← string
          visit s
        else wrongType T expected : Reader α) (w ++ '"' :: (wide u ++ (y ++ rest))) =
      (.err m (some rest.length), rest) := by
    rw [bind_ok (got_ws _), skipWs_char hw (by decide)]
    simp only [List.head?_cons]
    rw [if_pos trivial, bind_ok (got_eat _), List.tail_cons, bind_err hs]
  exact settle_placed h1

theorem option_string {f : Reader Json} {w s : Str} (hw : Ws w) : option f (w ++ '"' :: s) = f ('"' :: s) := by
  unfold option
  rw [bind_ok (got_ws _), skipWs_char hw (by decide)]
  rfl

theorem field_spoilt (x : Ext) (T : Texts) {c w v u y m rest : Str} {k : Nat} (hc : c ∈ claimNames) (hw : Ws w)
    (hu : CharsText v u) (h : Spoilt y k m) (hk : k ≤ rest.length) :
    ∃ f, bodyField x T c = some f ∧
      f (w ++ '"' :: (wide u ++ (y ++ rest))) = (.err m (some rest.length), rest) := by
  have h1 := fun e (g : Str → Reader Json) => visitStr_spoilt (T := T) (expected := e) (visit := g) hw hu h hk
  have h2 := fun e (g : Str → Reader Json) => visitStr_spoilt (T := T) (expected := e) (visit := g) Ws.nil hu h hk
  simp only [claimNames, List.mem_cons, List.not_mem_nil, or_false] at hc
  rcases hc with rfl | rfl | rfl | rfl | rfl | rfl | rfl
  · exact ⟨_, rfl, (option_string hw).trans (h2 _ _)⟩
  · exact ⟨_, rfl, h1 _ _⟩
  · exact ⟨_, rfl, (option_string hw).trans (h2 _ _)⟩
  · exact ⟨_, rfl, h1 _ _⟩
  · exact ⟨_, rfl, h1 _ _⟩
  · exact ⟨_, rfl, (option_string hw).trans (h2 _ _)⟩
  · exact ⟨_, rfl, (option_string hw).trans (h2 _ _)⟩

/-! ### Skipped strings -/

theorem skipChars_plain {c : Char} {s r m : Str} {l : Option Nat} {n : Nat} (h1 : c ≠ '"') (h2 : c ≠ '\\')
    (h3 : ¬ c.toNat < 32) (h : skipChars n s = (.err m l, r)) : skipChars (n + 1) (c :: s) = (.err m l, r) := by
  rw [skipChars, bind_ok (got_peek _)]
  simp only [List.head?_cons]
  rw [if_neg h1, if_neg h2, if_neg h3, bind_ok (got_eat _), List.tail_cons, h]

theorem skipChars_escape {t s r m : Str} {l : Option Nat} {n : Nat} (he : got skipEscape t = some ((), s))
    (h : skipChars n s = (.err m l, r)) : skipChars (n + 1) ('\\' :: t) = (.err m l, r) := by
  rw [skipChars, bind_ok (got_peek _)]
  simp only [List.head?_cons]
  rw [if_neg (by decide), if_pos trivial, bind_ok (got_eat _), List.tail_cons, bind_ok he, h]

theorem skipChars_bytes {s r m : Str} {l : Option Nat} : ∀ (t : Str) (n : Nat), (∀ c ∈ t, 128 ≤ c.toNat) →
    skipChars n s = (.err m l, r) → skipChars (n + t.length) (t ++ s) = (.err m l, r)
  | [], _, _, h => h
  | c :: t, n, ht, h => by
    have hc := ht c (by simp)
    refine skipChars_plain (n := n + t.length) ?_ ?_ (by omega) (skipChars_bytes t n (fun c hc => ht c (by simp [hc])) h)
    · rintro rfl; revert hc; decide
    · rintro rfl; revert hc; decide

theorem skipChars_stop {v u s r m : Str} {l : Option Nat} (hu : CharsText v u) :
    (∀ n, skipChars (n + 1) s = (.err m l, r)) →
      ∀ n, (wide u).length < n → skipChars n (wide u ++ s) = (.err m l, r) := by
  intro hs
  induction hu with
  | nil =>
    intro n hn
    obtain ⟨k, rfl⟩ : ∃ k, n = k + 1 := ⟨n - 1, by omega⟩
    exact hs k
  | unescaped c v t h1 h2 h3 _ ih =>
    intro n hn
    by_cases hc : c.toNat < 128
    · rw [Json.wide_ascii hc] at hn ⊢
      simp only [List.length_cons] at hn
      obtain ⟨k, rfl⟩ : ∃ k, n = k + 1 := ⟨n - 1, by omega⟩
      exact skipChars_plain h2 h3 (by omega) (ih k (by omega))
    · rw [Json.wide_cons] at hn ⊢
      rw [List.length_append] at hn
      rw [List.append_assoc]
      obtain ⟨k, rfl⟩ : ∃ k, n = k + (wide [c]).length := ⟨n - (wide [c]).length, by omega⟩
      exact skipChars_bytes _ k (Json.wide_nonascii (by omega)) (ih k (by omega))
  | escape e c v t he _ ih =>
    intro n hn
    rw [Json.wide_ascii (by decide), Json.wide_ascii (Json.escape_ascii he)] at hn ⊢
    simp only [List.length_cons] at hn
    obtain ⟨k, rfl⟩ : ∃ k, n = k + 1 := ⟨n - 1, by omega⟩
    exact skipChars_escape (skipEscape_simple he _) (ih k (by omega))
  | unicode c h v t hh _ ih =>
    intro n hn
    rw [Json.wide_ascii (by decide), Json.wide_ascii (by decide), Json.wide_append,
      Json.wide_eq_self (Json.hex4_ascii hh)] at hn ⊢
    simp only [List.length_cons, List.length_append] at hn
    obtain ⟨k, rfl⟩ : ∃ k, n = k + 1 := ⟨n - 1, by omega⟩
    simp only [List.cons_append, List.append_assoc]
    exact skipChars_escape (skipEscape_unicode hh _) (ih k (by omega))
  | pair c hi lo h l v t hh hl h1 h2 h3 h4 hc _ ih =>
    intro n hn
    rw [Json.wide_ascii (by decide), Json.wide_ascii (by decide), Json.wide_append,
      Json.wide_eq_self (Json.hex4_ascii hh), Json.wide_ascii (by decide), Json.wide_ascii (by decide), Json.wide_append,
      Json.wide_eq_self (Json.hex4_ascii hl)] at hn ⊢
    simp only [List.length_cons, List.length_append] at hn
    obtain ⟨k, rfl⟩ : ∃ k, n = k + 2 := ⟨n - 2, by omega⟩
    simp only [List.cons_append, List.append_assoc]
    exact skipChars_escape (n := k + 1) (skipEscape_unicode hh _)
      (skipChars_escape (skipEscape_unicode hl _) (ih k (by omega)))

end Reading

/-- How many octets short of the wrong one the place is: a control character in a string that is passed over is
reported in front of it, not behind it. -/
def Spec.short (m : Str) : Nat :=
  if m = str! "control character (\\u0000-\\u001F) found while parsing a string" then 1 else 0

theorem Reading.skipChars_spoilt {y m rest : Str} {k : Nat} (h : Spoilt y k m) (hk : k ≤ rest.length) :
    ∃ r, ∀ n, skipChars (n + 1) (y ++ rest) = (.err m (some (rest.length + short m)), r) := by
  cases h with
  | control c hc =>
    refine ⟨c :: rest, fun n => ?_⟩
    rw [skipChars, List.cons_append, List.nil_append, bind_ok (got_peek _)]
    simp only [List.head?_cons]
    rw [if_neg (by rintro rfl; revert hc; decide), if_neg (by rintro rfl; revert hc; decide), if_pos hc]
    rfl
  | escape e hu he =>
    have : skipEscape (e :: rest) = (.err invalidEscape (some rest.length), rest) := by
      unfold skipEscape
      rw [bind_ok (got_next _)]
      simp only [List.head?_cons, List.tail_cons]
      rw [simpleEscape_none he]
      rfl
    refine ⟨rest, fun n => ?_⟩
    rw [skipChars]
    simp only [List.cons_append, List.nil_append]
    rw [bind_ok (got_peek _)]
    simp only [List.head?_cons]
    rw [if_neg (by decide), if_pos trivial, bind_ok (got_eat _), List.tail_cons, bind_err this]
    rfl
  | digit h c _ hh hc hl =>
    have h0 : Json.hexVal c = none := by
      rw [← Option.not_isSome_iff_eq_none, hexVal_isSome]; exact hc
    have : skipEscape ('u' :: (h ++ c :: rest)) = (.err invalidEscape (some rest.length), rest) := by
      unfold skipEscape
      rw [bind_ok (got_next _)]
      simp only [List.head?_cons, List.tail_cons]
      refine bind_err ?_
      unfold hexEscape
      rw [if_neg (by simp only [List.length_append, List.length_cons]; omega)]
      exact hexDigits_bad rest (fun d hd => hexVal_isSome.2 (hh d hd)) h0 (by omega)
    refine ⟨rest, fun n => ?_⟩
    rw [skipChars]
    simp only [List.cons_append, List.nil_append, List.append_assoc]
    rw [bind_ok (got_peek _)]
    simp only [List.head?_cons]
    rw [if_neg (by decide), if_pos trivial, bind_ok (got_eat _), List.tail_cons, bind_err this]
    rfl

/-- C154. A claim whose string is spoilt after some characters: the place is behind the first octet that is wrong. -/
theorem C154_text_body (x : Ext) (T : Texts) (b : Bytes) (kvs : List (Str × Json)) (t k n s w w' v u z y m rest : Str)
    (j : Nat) (hb : Octets b (t ++ (s ++ (w ++ ':' :: (w' ++ '"' :: (z ++ (y ++ rest))))))) (ht : BodyStart x kvs t)
    (hk : k ∈ claimNames) (hin : k ∉ kvs.map Prod.fst) (hn : StringText k n) (hs : Utf8Text n s) (hw : Ws w)
    (hw' : Ws w') (hu : CharsText v u) (hz : Utf8Text u z) (hy : Spoilt y j m) (hj : j ≤ rest.length) :
    ∃ text, bodyReport x T b = some text ∧
      Report b m (t.length + s.length + w.length + 1 + w'.length + 1 + z.length + y.length) text := by
  obtain ⟨q, hq, rfl⟩ := hn
  obtain rfl := Json.utf8Text_iff.1 hs
  obtain rfl := Json.utf8Text_iff.1 hz
  rw [Json.wide_quoted] at *
  obtain ⟨f, hf, h⟩ := field_spoilt x T hk hw' hu hy hj
  have e : t ++ ('"' :: (wide q ++ ['"']) ++ (w ++ ':' :: (w' ++ '"' :: (wide u ++ (y ++ rest))))) =
      t ++ '"' :: (wide q ++ '"' :: (w ++ ':' :: (w' ++ '"' :: (wide u ++ (y ++ rest))))) := by simp
  obtain ⟨r, h⟩ := start_run (T := T) ht (fun m b w1 w2 hw1 hw2 => lead_value m hf
    (fun hm => (mem_seenAfter.1 hm).elim (by simp) fun h => hin h.2) hw1 hw2 hq hw h)
  rw [Option.getD_some, ← e] at h
  obtain ⟨text, h1, h2⟩ := body_report hb h
  refine ⟨text, h1, ?_⟩
  have hlen := octets_length hb
  simp only [List.length_append, List.length_cons, List.length_nil] at hlen ⊢
  rw [show b.length - rest.length = t.length + ((wide q).length + (0 + 1) + 1) + w.length + 1 + w'.length + 1 +
    (wide u).length + y.length by omega] at h2
  exact h2

/-- C154. The same for the `typ` of the header. -/
theorem C154_text_header (T : Texts) (b : Bytes) (kvs : List (Str × Json)) (t n s w w' v u z y m rest : Str)
    (j : Nat) (hb : Octets b (t ++ (s ++ (w ++ ':' :: (w' ++ '"' :: (z ++ (y ++ rest))))))) (ht : HeaderStart kvs t)
    (hin : str! "typ" ∉ kvs.map Prod.fst) (hn : StringText (str! "typ") n) (hs : Utf8Text n s) (hw : Ws w)
    (hw' : Ws w') (hu : CharsText v u) (hz : Utf8Text u z) (hy : Spoilt y j m) (hj : j ≤ rest.length) :
    ∃ text, headerReport T b = some text ∧
      Report b m (t.length + s.length + w.length + 1 + w'.length + 1 + z.length + y.length) text := by
  obtain ⟨q, hq, rfl⟩ := hn
  obtain rfl := Json.utf8Text_iff.1 hs
  obtain rfl := Json.utf8Text_iff.1 hz
  rw [Json.wide_quoted] at *
  have hf : headerField T (str! "typ") = some (readText T) := rfl
  have h : readText T (w' ++ '"' :: (wide u ++ (y ++ rest))) = (.err m (some rest.length), rest) :=
    visitStr_spoilt hw' hu hy hj
  have e : t ++ ('"' :: (wide q ++ ['"']) ++ (w ++ ':' :: (w' ++ '"' :: (wide u ++ (y ++ rest))))) =
      t ++ '"' :: (wide q ++ '"' :: (w ++ ':' :: (w' ++ '"' :: (wide u ++ (y ++ rest))))) := by simp
  obtain ⟨r, h⟩ := header_start_run (T := T) ht (fun m b w1 w2 hw1 hw2 => lead_value m hf
    (fun hm => (mem_seenAfter.1 hm).elim (by simp) fun h => hin h.2) hw1 hw2 hq hw h)
  rw [Option.getD_some, ← e] at h
  obtain ⟨text, h1, h2⟩ := header_report hb h
  refine ⟨text, h1, ?_⟩
  have hlen := octets_length hb
  simp only [List.length_append, List.length_cons, List.length_nil] at hlen ⊢
  rw [show b.length - rest.length = t.length + ((wide q).length + (0 + 1) + 1) + w.length + 1 + w'.length + 1 +
    (wide u).length + y.length by omega] at h2
  exact h2

/-- C154. The same in a member the body does not know, except for the place of a control character. -/
theorem C154_skipped_body (x : Ext) (T : Texts) (b : Bytes) (kvs : List (Str × Json))
    (t k n s w w' v u z y m rest : Str) (j : Nat)
    (hb : Octets b (t ++ (s ++ (w ++ ':' :: (w' ++ '"' :: (z ++ (y ++ rest))))))) (ht : BodyStart x kvs t)
    (hk : k ∉ claimNames) (hn : StringText k n) (hs : Utf8Text n s) (hw : Ws w) (hw' : Ws w') (hu : CharsText v u)
    (hz : Utf8Text u z) (hy : Spoilt y j m) (hj : j ≤ rest.length) :
    ∃ text, bodyReport x T b = some text ∧
      Report b m (t.length + s.length + w.length + 1 + w'.length + 1 + z.length + (y.length - short m)) text := by
  obtain ⟨q, hq, rfl⟩ := hn
  obtain rfl := Json.utf8Text_iff.1 hs
  obtain rfl := Json.utf8Text_iff.1 hz
  rw [Json.wide_quoted] at *
  obtain ⟨r0, h0⟩ := skipChars_spoilt hy hj
  have h1 : ignored (w' ++ '"' :: (wide u ++ (y ++ rest))) = (.err m (some (rest.length + short m)), r0) := by
    unfold ignored
    refine bind_err ?_
    show skip (_ + 1) _ = _
    rw [skip, bind_ok (got_ws _), skipWs_char hw' (by decide)]
    simp only [List.head?_cons]
    rw [if_pos trivial, bind_ok (got_eat _), List.tail_cons]
    exact skipChars_stop hu h0 _ (by simp only [List.length_append]; omega)
  have hf : bodyField x T k = none := by
    rw [← Option.not_isSome_iff_eq_none, bodyField_isSome]; exact hk
  have e : t ++ ('"' :: (wide q ++ ['"']) ++ (w ++ ':' :: (w' ++ '"' :: (wide u ++ (y ++ rest))))) =
      t ++ '"' :: (wide q ++ '"' :: (w ++ ':' :: (w' ++ '"' :: (wide u ++ (y ++ rest))))) := by simp
  obtain ⟨r, h⟩ := start_run (T := T) ht (fun m b w1 w2 hw1 hw2 => lead_other m hf hw1 hw2 hq hw h1)
  rw [Option.getD_some, ← e] at h
  obtain ⟨text, g1, g2⟩ := body_report hb h
  refine ⟨text, g1, ?_⟩
  have hlen := octets_length hb
  have hy1 : short m ≤ y.length := by
    unfold short
    have : 1 ≤ y.length := by cases hy <;> simp
    split <;> omega
  simp only [List.length_append, List.length_cons, List.length_nil] at hlen ⊢
  rw [show b.length - (rest.length + short m) = t.length + ((wide q).length + (0 + 1) + 1) + w.length + 1 + w'.length +
    1 + (wide u).length + (y.length - short m) by omega] at g2
  exact g2

namespace Ex

/-- A line break in the nonce, and one in a member that is not known. -/
example (b' : Bytes) : ∃ text, bodyReport Ex.ext texts (utf8Encode (str! "{\"nonce\":\"n\n") ++ b') = some text ∧
    Report (utf8Encode (str! "{\"nonce\":\"n\n") ++ b')
      (str! "control character (\\u0000-\\u001F) found while parsing a string") 12 text :=
  C154_text_body Ex.ext texts _ [] ['{'] (str! "nonce") (str! "\"nonce\"") (str! "\"nonce\"") [] [] (str! "n") (str! "n")
    (str! "n") ['\n'] _ (octets b') 0 (Json.octets_iff.2 (by simp only [octets, List.map_append]; rfl))
    (.brace [] [] Ws.nil Ws.nil) (by decide) (by simp) ⟨_, plain (str! "nonce") (by decide), rfl⟩
    (Json.utf8Text_iff.2 (by decide)) Ws.nil Ws.nil (plain (str! "n") (by decide)) (Json.utf8Text_iff.2 (by decide))
    (.control '\n' (by decide)) (by simp)

example (b' : Bytes) : ∃ text, headerReport texts (utf8Encode (str! "{\"typ\":\"n\\q") ++ b') = some text ∧
    Report (utf8Encode (str! "{\"typ\":\"n\\q") ++ b') (str! "invalid escape") 11 text :=
  C154_text_header texts _ [] ['{'] (str! "\"typ\"") (str! "\"typ\"") [] [] (str! "n") (str! "n")
    (str! "n") ['\\', 'q'] _ (octets b') 0 (Json.octets_iff.2 (by simp only [octets, List.map_append]; rfl))
    (.brace [] [] Ws.nil Ws.nil) (by simp) ⟨_, plain (str! "typ") (by decide), rfl⟩
    (Json.utf8Text_iff.2 (by decide)) Ws.nil Ws.nil (plain (str! "n") (by decide)) (Json.utf8Text_iff.2 (by decide))
    (.escape 'q' (by decide) (by decide)) (by simp)

example (b' : Bytes) : ∃ text, bodyReport Ex.ext texts (utf8Encode (str! "{\"nonsense\":\"n\n") ++ b') = some text ∧
    Report (utf8Encode (str! "{\"nonsense\":\"n\n") ++ b')
      (str! "control character (\\u0000-\\u001F) found while parsing a string") 14 text :=
  C154_skipped_body Ex.ext texts _ [] ['{'] (str! "nonsense") (str! "\"nonsense\"") (str! "\"nonsense\"") [] []
    (str! "n") (str! "n") (str! "n") ['\n'] _ (octets b') 0
    (Json.octets_iff.2 (by simp only [octets, List.map_append]; rfl)) (.brace [] [] Ws.nil Ws.nil) (by decide)
    ⟨_, plain (str! "nonsense") (by decide), rfl⟩ (Json.utf8Text_iff.2 (by decide)) Ws.nil Ws.nil
    (plain (str! "n") (by decide)) (Json.utf8Text_iff.2 (by decide)) (.control '\n' (by decide)) (by simp)

end Ex
end Oid4vci
