import Verif.Lemmas.Magnitude
import Verif.Props.JwtText

/-!
C98: numbers beyond the range of double-precision numbers are refused, all others are read.
-/

namespace Oid4vci

open Spec Json

/-! ### C98 -/

theorem elements_text {xs : List Json} {t : Str} (h : ElementsText xs t) (x : Json) (hx : x ∈ xs) :
    ∃ s, s <:+: t ∧ ValueText x s := by
  induction xs generalizing t with
  | nil => cases hx
  | cons y ys ih =>
    cases h with
    | more _ _ w w' s t _ _ hv ht =>
      rcases List.mem_cons.1 hx with rfl | hx
      · exact ⟨s, ⟨w ++ ',' :: w', t, by simp⟩, hv⟩
      · obtain ⟨u, ⟨a, b, hu⟩, hv⟩ := ih ht hx
        exact ⟨u, ⟨w ++ ',' :: (w' ++ s ++ a), b, by simp [← hu]⟩, hv⟩

theorem members_text {kvs : List (Str × Json)} {t : Str} (h : MembersText kvs t) (k : Str) (v : Json)
    (hx : (k, v) ∈ kvs) : ∃ s, s <:+: t ∧ ValueText v s := by
  induction kvs generalizing t with
  | nil => cases hx
  | cons y ys ih =>
    cases h with
    | more _ _ _ w w' s t _ _ hv ht =>
      rcases List.mem_cons.1 hx with hx | hx
      · cases hx
        cases hv with
        | mk _ _ a b c u _ _ _ hv => exact ⟨u, ⟨w ++ ',' :: (w' ++ (a ++ b ++ ':' :: c)), t, by simp⟩, hv⟩
      · obtain ⟨u, ⟨a, b, hu⟩, hv⟩ := ih ht hx
        exact ⟨u, ⟨w ++ ',' :: (w' ++ s ++ a), b, by simp [← hu]⟩, hv⟩

theorem contained_text {v y : Json} (hc : Contains v y) : ∀ {s}, ValueText v s → ∃ t, t <:+: s ∧ ValueText y t := by
  induction hc with
  | self j => exact fun h => ⟨_, List.infix_rfl, h⟩
  | element x y xs hx _ ih =>
    intro s h
    cases h with
    | emptyArray => cases hx
    | array x' xs' w s' t _ hv ht =>
      rcases List.mem_cons.1 hx with rfl | hx
      · obtain ⟨u, h1, h2⟩ := ih hv
        exact ⟨u, h1.trans ⟨'[' :: w, t, by simp⟩, h2⟩
      · obtain ⟨s, hs, hs'⟩ := elements_text ht _ hx
        obtain ⟨u, h1, h2⟩ := ih hs'
        exact ⟨u, (h1.trans hs).trans ⟨'[' :: (w ++ s'), [], by simp⟩, h2⟩
  | member k v y kvs hx _ ih =>
    intro s h
    cases h with
    | emptyObject => cases hx
    | object k' v' kvs' w s' t _ hv ht =>
      rcases List.mem_cons.1 hx with hx | hx
      · cases hx
        cases hv with
        | mk _ _ a b c u _ _ _ hv =>
          obtain ⟨u', h1, h2⟩ := ih hv
          exact ⟨u', h1.trans ⟨'{' :: (w ++ (a ++ b ++ ':' :: c)), t, by simp⟩, h2⟩
      · obtain ⟨s, hs, hs'⟩ := members_text ht _ _ hx
        obtain ⟨u, h1, h2⟩ := ih hs'
        exact ⟨u, (h1.trans hs).trans ⟨'{' :: (w ++ s'), [], by simp⟩, h2⟩

theorem parse_float {l : Str} {d : Double} (h : NumberText (.float l) l) (hr : ReadAs l d) :
    Json.parse l = some (.float d) :=
  (C65_grammar _ _).2 ⟨⟨[], l, [], by simp [Ws], .float _ _ h hr, by simp [Ws], by simp⟩, by simp [depth]⟩

/-- C98. A number up to `1.797693134862315e308` is read, however many digits it has. -/
theorem C98_read (l : Str) (i f : List Nat) (x : Int) (h : NumberText (.float l) l) (hp : NumberParts l i f x)
    (hm : magnitude i f x ≤ surelyRead) : ∃ d, Json.parse l = some (.float d) := by
  obtain ⟨hi, hf⟩ := parts_lt hp
  obtain ⟨m, e, hr⟩ := partsReadAs_of_small hi hf hm
  exact ⟨⟨decide (l.head? = some '-'), m, e⟩, parse_float h ⟨i, f, x, hp, by simp, hr⟩⟩

/-- C98. Every floating-point number in a document that was read has been written by a number in the text
that is below `1.797693134862317e308`. -/
theorem C98_refused (s : Str) (v : Json) (d : Double) (h : Json.parse s = some v) (hc : Contains v (.float d)) :
    ∃ l i f x, l <:+: s ∧ NumberText (.float l) l ∧ NumberParts l i f x ∧ ReadAs l d ∧
      magnitude i f x < surelyRefused := by
  obtain ⟨⟨w, t, w', -, hv, -, rfl⟩, -⟩ := (C65_grammar _ _).1 h
  obtain ⟨l, hl, ht⟩ := contained_text hc hv
  cases ht with
  | float _ _ hn hr =>
    obtain ⟨-, i, f, x, hp⟩ := numberText_parts hn
    refine ⟨l, i, f, x, hl.trans ⟨w, w', by simp⟩, hn, hp, hr, ?_⟩
    by_contra hm
    obtain ⟨hi, hf⟩ := parts_lt hp
    exact not_partsReadAs_of_large hi hf (not_lt.1 hm) _ _ ((readFloat_parts hp).1 ((readAs_iff hp).1 hr)).2

/-- C98. A text that is just such a number is not read. -/
theorem C98_infinite (l : Str) (i f : List Nat) (x : Int) (h : NumberText (.float l) l) (hp : NumberParts l i f x)
    (hm : surelyRefused ≤ magnitude i f x) : Json.parse l = none := by
  obtain ⟨hi, hf⟩ := parts_lt hp
  have hin : readFloat l = none := by
    rw [Option.eq_none_iff_forall_ne_some]
    intro d hd
    exact not_partsReadAs_of_large hi hf hm _ _ ((readFloat_parts hp).1 hd).2
  have hread : ∀ neg s r, parseNumber neg s = some (.float l, r) → readNumber neg s = none := by
    intro neg s r hs
    simp [readNumber, hs, hin]
  have hv : parseValue (4 * l.length + 4) maxDepth l = none := by
    rcases number_complete h (r := []) (by intro c hc; simp at hc) with ⟨t', rfl, hn⟩ | ⟨c, t', rfl, hd, hn⟩
    · rw [List.append_nil] at hn
      unfold parseValue
      rw [skipWs_cons (by decide)]
      simp only [Char.reduceEq, if_true, if_false, hread _ _ _ hn]
    · obtain ⟨h1, h2, h3, h4, h5, -⟩ := isDigit_facts hd
      rw [List.append_nil] at hn
      unfold parseValue
      rw [skipWs_cons h1]
      have : c ≠ '"' ∧ c ≠ '[' ∧ c ≠ '{' ∧ c ≠ '-' := by
        refine ⟨?_, ?_, ?_, ?_⟩ <;> rintro rfl <;> exact absurd hd (by decide)
      simp only [this, hd, if_true, if_false, hread _ _ _ hn]
  simp only [Json.parse, hv]

/-- C98. The header of an accepted proof JWT has no such number, in whatever member. -/
theorem C98_header (x : Ext) (hs bs : Str) (rest : List Str) (j : ProofJwt)
    (hnd : ∀ p ∈ hs :: bs :: rest, NoDot p) (h : ProofJwt.fromStr x (dotted (hs :: bs :: rest)) = .ok j) :
    ∃ hb s v, IsBase64url hb hs ∧ IsUtf8 s hb ∧ JsonText v s ∧
      ∀ d, Contains v (.float d) → ∃ l i f e, l <:+: s ∧ NumberText (.float l) l ∧ NumberParts l i f e ∧
        ReadAs l d ∧ magnitude i f e < surelyRefused := by
  obtain ⟨hs', bs', r, h1, h1', h2, -⟩ := (C67_jwt _ _ _).1 h
  have e : hs :: bs :: rest = hs' :: bs' :: r := by
    rw [← splitOn_dotted _ (by simp) hnd, ← splitOn_dotted _ (by simp) h1, h1']
  obtain ⟨rfl, rfl, rfl⟩ : hs = hs' ∧ bs = bs' ∧ rest = r := by simpa using e
  obtain ⟨hb, s, e1, e2, v, e3, e4, -⟩ := h2
  exact ⟨hb, s, v, e1, e2, e3, fun d hc => C98_refused s v d ((C65_grammar _ _).2 ⟨e3, e4⟩) hc⟩

/-- The same member in the header and in the body of a proof JWT. -/
example :
    let h := base64urlEncode (utf8Encode (str! "{\"alg\":\"ES256\",\"typ\":\"openid4vci-proof+jwt\",\"kid\":\"k\"}"))
    let h' := base64urlEncode (utf8Encode (str! "{\"alg\":\"ES256\",\"typ\":\"openid4vci-proof+jwt\",\"kid\":\"k\",\"x\":1e999}"))
    let b := base64urlEncode (utf8Encode (str! "{\"aud\":\"a\",\"iat\":\"2\",\"nonce\":\"n\",\"x\":1e999}"))
    (match ProofJwt.fromStr Ex.ext (dotted [h, b]), ProofJwt.fromStr Ex.ext (dotted [h', b]) with
      | .ok _, .err _ => true
      | _, _ => false) = true := by decide +kernel

/-! Examples: the numbers, and where they matter: in the header of a JWT every member is read, in its body
members that are not known are only skipped. -/

example : Json.parse (str! "1e308") = some (.float ⟨false, 5010420900022432, 971⟩) := by decide +kernel
example : Json.parse (str! "[0.5, 1e309]") = none := by decide +kernel
example : Json.parse (str! "-1e999") = none := by decide +kernel
example : Json.parse (str! "0e999") = some (.float ⟨false, 0, -1074⟩) := by decide +kernel
example : Json.parse (str! "1e-999") = some (.float ⟨false, 0, -1074⟩) := by decide +kernel

/-- The hypotheses can be met. -/
example : ∃ d, Json.parse (str! "1.5e300") = some (.float d) :=
  C98_read _ [1] [5] 300
    (.otherwise false 1 (str! "1") (str! ".5") (str! "e300")
      ⟨[1], digitsText_iff.2 (by decide), by decide, by decide⟩
      (.inr ⟨[5], str! "5", digitsText_iff.2 (by decide), rfl⟩)
      (.inr ⟨[3, 0, 0], str! "300", digitsText_iff.2 (by decide), 'e', by decide, [], by decide, rfl⟩)
      (by decide))
    ⟨[], str! "1", str! ".5", str! "e300", by decide, by decide, digitsText_iff.2 (by decide),
      .inr ⟨str! "5", digitsText_iff.2 (by decide), rfl⟩,
      .inr ⟨[3, 0, 0], str! "300", digitsText_iff.2 (by decide), 'e', by decide, .inl ⟨rfl, by decide⟩⟩⟩
    (by
      have h : 15 * 10 ^ 299 ≤ surelyRead := by decide +kernel
      have : magnitude [1] [5] 300 = (15 : ℕ) * 10 ^ 299 := by
        simp only [magnitude]
        rw [show ((300 : Int) - (([5] : List Nat).length : Int)) = ((299 : Nat) : Int) by decide, zpow_natCast]
        rfl
      rw [this]
      exact_mod_cast h)

/-- C98: the exponent of the read number is the one of a number in the text. -/
example : ∃ l i f x, l <:+: str! "[0.5, 1e308]" ∧ NumberText (.float l) l ∧ NumberParts l i f x ∧
    ReadAs l ⟨false, 5010420900022432, 971⟩ ∧ magnitude i f x < surelyRefused :=
  C98_refused _ (.arr [.float ⟨false, 4503599627370496, -53⟩, .float ⟨false, 5010420900022432, 971⟩]) _
    (by decide +kernel) (.element _ _ _ (by simp) (.self _))
/-- C98: a number that is too large. -/
example : Json.parse (str! "1.5e309") = none :=
  C98_infinite _ [1] [5] 309
    (.otherwise false 1 (str! "1") (str! ".5") (str! "e309")
      ⟨[1], digitsText_iff.2 (by decide), by decide, by decide⟩
      (.inr ⟨[5], str! "5", digitsText_iff.2 (by decide), rfl⟩)
      (.inr ⟨[3, 0, 9], str! "309", digitsText_iff.2 (by decide), 'e', by decide, [], by decide, rfl⟩)
      (by decide))
    ⟨[], str! "1", str! ".5", str! "e309", by decide, by decide, digitsText_iff.2 (by decide),
      .inr ⟨str! "5", digitsText_iff.2 (by decide), rfl⟩,
      .inr ⟨[3, 0, 9], str! "309", digitsText_iff.2 (by decide), 'e', by decide, .inl ⟨rfl, by decide⟩⟩⟩
    (by
      have h : surelyRefused ≤ 15 * 10 ^ 308 := by decide +kernel
      have : magnitude [1] [5] 309 = (15 : ℕ) * 10 ^ 308 := by
        simp only [magnitude]
        rw [show ((309 : Int) - (([5] : List Nat).length : Int)) = ((308 : Nat) : Int) by decide, zpow_natCast]
        rfl
      rw [this]
      exact_mod_cast h)

end Oid4vci
