import Verif.Lemmas.UnreadableReport

/-!
Unreadable JSON (C122): which report the header or body of a proof JWT gets that is not what it should be.
-/

namespace Oid4vci

open Spec Reading
open Json (octets)

theorem position_snoc (s : Str) (c : Char) :
    position (s ++ [c]) = if c = '\n' then ((position s).1 + 1, 0) else ((position s).1, (position s).2 + 1) := by
  unfold position
  rw [List.foldl_append]
  rfl

theorem position_place (b : Bytes) : PlaceAfter b b.length (position (octets b)).1 (position (octets b)).2 := by
  unfold PlaceAfter
  rw [List.take_length]
  induction b using List.reverseRecOn with
  | nil => exact ⟨[], [], rfl, .inl rfl, by simp, rfl, rfl⟩
  | append_singleton b o ih =>
    obtain ⟨lines, rest, rfl, h1, h2, h3, h4⟩ := ih
    have e : octets (lines ++ rest ++ [o]) = octets (lines ++ rest) ++ [Char.ofNat o.toNat] := by
      unfold octets
      rw [List.map_append]
      rfl
    rw [e, position_snoc]
    have ho : Char.ofNat o.toNat = '\n' ↔ o = 0x0A := by
      constructor
      · intro h
        have : (Char.ofNat o.toNat).toNat = o.toNat := Json.octet_toNat o
        rw [h] at this
        exact UInt8.toNat_inj.1 this.symm
      · rintro rfl; rfl
    by_cases hc : o = 0x0A
    · rw [if_pos (ho.2 hc)]
      subst hc
      refine ⟨lines ++ rest ++ [0x0A], [], by simp, .inr ⟨_, rfl⟩, by simp, ?_, rfl⟩
      rw [h3, List.count_append, List.count_append, List.count_eq_zero.2 h2]
      simp
      omega
    · rw [if_neg (fun h => hc (ho.1 h))]
      refine ⟨lines, rest ++ [o], by simp, h1, ?_, h3, ?_⟩
      · intro h
        rcases List.mem_append.1 h with h | h
        · exact h2 h
        · exact hc (List.mem_singleton.1 h).symm
      · rw [h4]; simp

theorem intText_natDigits (n : Nat) : IntText n (Json.natDigits n) := by
  obtain ⟨h1, h2, h3, h4, h5⟩ := Json.natDigits_props n
  refine Json.intText_iff.2 ⟨h3, h1, ?_, h2.symm⟩
  rintro ⟨h, h'⟩
  by_cases hn : n = 0
  · exact h' (h5 hn)
  · exact h4 hn h

theorem display_report {b : Bytes} {m : Str} {l : Nat} (h : l ≤ b.length) :
    Report b m (b.length - l) (display (octets b) m l) := by
  refine ⟨by omega, ?_⟩
  unfold display
  have hl : (octets b).length = b.length := by simp [octets]
  have ht : (octets b).take (b.length - l) = octets (b.take (b.length - l)) := by simp [octets]
  have hp := position_place (b.take (b.length - l))
  rw [hl, ht]
  simp only
  refine ⟨_, _, _, _, ?_, intText_natDigits _, intText_natDigits _, rfl⟩
  unfold PlaceAfter at *
  rw [List.take_length] at hp
  exact hp

/-- Errors with a place. -/
def Placed (f : Reader Json) : Prop := ∀ s m r, f s ≠ (.err m none, r)

theorem placed_bind {α : Type} {f : Reader α} {g : α → Reader Json} (hf : ∀ s m r, f s ≠ (.err m none, r))
    (hg : ∀ a, Placed (g a)) : Placed (f >>= g) := by
  intro s m r h
  have hrun : (f >>= g) s = match f s with
      | (.ok a, r) => g a r
      | (.err m l, r) => (.err m l, r)
      | (.stuck, r) => (.stuck, r) := rfl
  rw [hrun] at h
  rcases hs : f s with ⟨a | ⟨m', l'⟩ | _, r'⟩ <;> rw [hs] at h <;> simp only at h
  · exact hg a _ _ _ h
  · cases h
    exact hf _ _ _ hs
  · cases h

theorem placed_settle (f : Reader Json) : Placed (settle f) := by
  intro s m r hs
  unfold settle at hs
  split at hs
  · cases hs
  · rename_i hne
    exact hne _ _ hs

theorem document_placed (f : Reader Json) : Placed (document (settle f)) := by
  unfold document
  refine placed_bind (placed_settle f) fun j => placed_bind (fun s m r h => by cases h) fun o => ?_
  cases o with
  | none => intro s m r h; cases h
  | some c => intro s m r h; cases h

/-- What is known of a reader of documents. -/
theorem reported {f : Reader Json} {b : Bytes} (hc : Calm (document (settle f))) (ht : Total (document (settle f))) :
    (∃ j r, got (document (settle f)) (octets b) = some (j, r)) ∧ report (document (settle f)) b = none ∨
    got (document (settle f)) (octets b) = none ∧ ∃ m n text, report (document (settle f)) b = some text ∧
      Report b m n text ∧ ∀ b' : Bytes, n < b.length → b'.take (n + 1) = b.take (n + 1) →
        got (document (settle f)) (octets b') = none := by
  have hp := hc.place (octets b)
  have hlen : (octets b).length = b.length := by simp [octets]
  have hruns := ht.runs (octets b)
  rcases h : document (settle f) (octets b) with ⟨a | ⟨m, l⟩ | _, r⟩
  · exact .inl ⟨⟨a, r, got_eq_some.2 h⟩, by unfold report; rw [h]⟩
  · cases l with
    | none => exact absurd h (document_placed f _ _ _)
    | some l =>
      have hl : l ≤ b.length := by rw [← hlen]; exact hp _ _ _ h
      refine .inr ⟨by unfold got; rw [h], m, b.length - l, _, by unfold report; rw [h], display_report hl, ?_⟩
      intro b' hn hb
      have hs : octets b = octets (b.take (b.length - l + 1)) ++ octets (b.drop (b.length - l + 1)) := by
        simp [octets]
      have hs' : octets b' = octets (b.take (b.length - l + 1)) ++ octets (b'.drop (b.length - l + 1)) := by
        rw [← hb]
        simp [octets]
      have hnear := hc.near (octets (b.take (b.length - l + 1))) (octets (b.drop (b.length - l + 1)))
        (octets (b'.drop (b.length - l + 1)))
      rw [← hs, h] at hnear
      have : (octets (b.drop (b.length - l + 1))).length < l := by
        simp only [octets, List.length_map, List.length_drop]; omega
      obtain ⟨m', l', r', e⟩ := hnear this
      rw [← hs'] at e
      unfold got; rw [e]
  · unfold Runs at hruns
    rw [h] at hruns
    exact absurd rfl hruns

theorem header_got {T : Texts} {b : Bytes} :
    (∃ j r, got (document (readHeader T)) (octets b) = some (j, r)) ↔ ReadableHeader b := by
  simp only [got_header, Option.isSome_iff_exists, C63_header, C65_bytes]
  constructor
  · rintro ⟨j, _, -, ⟨s, h1, h2, h3⟩, h, h4⟩
    exact ⟨h, s, h1, j, h2, h3, h4⟩
  · rintro ⟨h, s, h1, j, h2, h3, h4⟩
    exact ⟨j, [], rfl, ⟨s, h1, h2, h3⟩, h, h4⟩

theorem body_got {x : Ext} {T : Texts} {b : Bytes} :
    (∃ j r, got (document (readBody x T)) (octets b) = some (j, r)) ↔ ReadableBody x b := by
  simp only [got_body, Option.isSome_iff_exists, C67_body, Json.looseSlice_iff]
  constructor
  · rintro ⟨j, _, -, h1, body, h2⟩
    exact ⟨body, j, h1, h2⟩
  · rintro ⟨body, j, h1, h2⟩
    exact ⟨j, [], rfl, h1, body, h2⟩

theorem got_none_iff {f : Reader Json} {s : Str} : got f s = none ↔ ¬ ∃ j r, got f s = some (j, r) := by
  cases h : got f s with
  | none => simp
  | some p => simp only [reduceCtorEq, false_iff, not_not]; exact ⟨p.1, p.2, rfl⟩

/-- C122. A header is either readable, and then there is no report; or it is not, and then the report is a message
with a place in the header. The fault does not lie behind the place: nothing that has the same octets up to there
and one more is readable. -/
theorem C122_header (T : Texts) (b : Bytes) :
    (headerReport T b = none ↔ ReadableHeader b) ∧
    ∀ text, headerReport T b = some text → ∃ m n, Report b m n text ∧
      (n < b.length → ∀ b' : Bytes, b'.take (n + 1) = b.take (n + 1) → ¬ ReadableHeader b') := by
  have h := reported (b := b) (calm_header T) (total_header T)
  have hg := header_got (T := T) (b := b)
  unfold headerReport
  rcases h with ⟨h1, h2⟩ | ⟨h1, m, n, text, h2, h3, h4⟩
  · exact ⟨⟨fun _ => hg.1 h1, fun _ => h2⟩, fun text h => by rw [show report (document (readHeader T)) b = none from h2] at h; cases h⟩
  · have h2' : report (document (readHeader T)) b = some text := h2
    refine ⟨⟨fun h => (by rw [h2'] at h; cases h), fun h => ?_⟩, fun text' h => ?_⟩
    · exact absurd (hg.2 h) (got_none_iff.1 h1)
    · rw [h2'] at h
      cases h
      exact ⟨m, n, h3, fun hn b' hb hr => got_none_iff.1 (h4 b' hn hb) (header_got.2 hr)⟩

/-- C122. The same for the body. -/
theorem C122_body (x : Ext) (T : Texts) (b : Bytes) :
    (bodyReport x T b = none ↔ ReadableBody x b) ∧
    ∀ text, bodyReport x T b = some text → ∃ m n, Report b m n text ∧
      (n < b.length → ∀ b' : Bytes, b'.take (n + 1) = b.take (n + 1) → ¬ ReadableBody x b') := by
  have h := reported (b := b) (calm_body x T) (total_body x T)
  have hg := body_got (x := x) (T := T) (b := b)
  unfold bodyReport
  rcases h with ⟨h1, h2⟩ | ⟨h1, m, n, text, h2, h3, h4⟩
  · exact ⟨⟨fun _ => hg.1 h1, fun _ => h2⟩, fun text h => by rw [show report (document (readBody x T)) b = none from h2] at h; cases h⟩
  · have h2' : report (document (readBody x T)) b = some text := h2
    refine ⟨⟨fun h => (by rw [h2'] at h; cases h), fun h => ?_⟩, fun text' h => ?_⟩
    · exact absurd (hg.2 h) (got_none_iff.1 h1)
    · rw [h2'] at h
      cases h
      exact ⟨m, n, h3, fun hn b' hb hr => got_none_iff.1 (h4 b' hn hb) (body_got.2 hr)⟩

/-- C122. A proof whose segments can be decoded is rejected with the report about its header, or else with the one
about its body, and accepted if there is neither. -/
theorem C122_jwt (x : Ext) (T : Texts) (s header body : Str) (rest : List Str) (hb bb : Bytes)
    (hs : splitOn '.' s = header :: body :: rest) (hh : IsBase64url hb header) (hbb : IsBase64url bb body) :
    (∀ text, headerReport T hb = some text → ProofJwt.fromStr (withJson x T) s = .err (.any text)) ∧
    (ReadableHeader hb → ∀ text, bodyReport x T bb = some text →
      ProofJwt.fromStr (withJson x T) s = .err (.any text)) ∧
    (ReadableHeader hb → ReadableBody x bb → ∃ j, ProofJwt.fromStr (withJson x T) s = .ok j) := by
  have h1 := (C44_base64url_rfc4648 hb header).1.2 hh
  have h2 := (C44_base64url_rfc4648 bb body).1.2 hbb
  have hH : ((Json.parseSlice hb).bind ProofJwtHeader.de).isSome ↔ ReadableHeader hb := by
    simp only [Option.isSome_iff_exists, Option.bind_eq_some_iff, C63_header, C65_bytes]
    constructor
    · rintro ⟨h, j, ⟨s, h1, h2, h3⟩, h4⟩
      exact ⟨h, s, h1, j, h2, h3, h4⟩
    · rintro ⟨h, s, h1, j, h2, h3, h4⟩
      exact ⟨h, j, ⟨s, h1, h2, h3⟩, h4⟩
  have hB : (ProofJwtBody.fromSlice (withJson x T) bb).isSome ↔ ReadableBody x bb := by
    have e : ProofJwtBody.fromSlice (withJson x T) bb =
      (Json.looseSlice claimNames bb).bind (ProofJwtBody.de x) := rfl
    rw [e]
    simp only [Option.isSome_iff_exists, Option.bind_eq_some_iff, C67_body, Json.looseSlice_iff]
    rfl
  have hr := C122_header T hb
  have hr' := C122_body x T bb
  refine ⟨fun text h => ?_, fun hread text h => ?_, fun hread hread' => ?_⟩
  · have hn : (Json.parseSlice hb).bind ProofJwtHeader.de = none := by
      cases hc : (Json.parseSlice hb).bind ProofJwtHeader.de with
      | none => rfl
      | some a => rw [hr.1.2 (hH.1 (by rw [hc]; rfl))] at h; cases h
    rw [ProofJwt.fromStr, hs]
    simp only [h1, h2, hn]
    simp [withJson, h]
  · obtain ⟨a, ha⟩ := Option.isSome_iff_exists.1 (hH.2 hread)
    have hn : ProofJwtBody.fromSlice (withJson x T) bb = none := by
      cases hc : ProofJwtBody.fromSlice (withJson x T) bb with
      | none => rfl
      | some a => rw [hr'.1.2 (hB.1 (by rw [hc]; rfl))] at h; cases h
    rw [ProofJwt.fromStr, hs]
    simp only [h1, h2, ha, hn]
    simp [withJson, h]
  · obtain ⟨a, ha⟩ := Option.isSome_iff_exists.1 (hH.2 hread)
    obtain ⟨c, hc⟩ := Option.isSome_iff_exists.1 (hB.2 hread')
    rw [ProofJwt.fromStr, hs]
    simp only [h1, h2, ha, hc]
    exact ⟨_, rfl⟩

theorem body_report {x : Ext} {T : Texts} {b : Bytes} {s m r : Str} {l : Nat} (hs : Octets b s)
    (h : document (readBody x T) s = (.err m (some l), r)) :
    ∃ text, bodyReport x T b = some text ∧ Report b m (b.length - l) text := by
  obtain rfl := Json.octets_iff.1 hs
  have hl := (calm_body x T).place _ _ _ _ h
  have hlen : (octets b).length = b.length := by simp [octets]
  refine ⟨_, ?_, display_report (by omega)⟩
  unfold bodyReport report
  rw [h]

theorem octets_length {b : Bytes} {s : Str} (h : Octets b s) : b.length = s.length := by
  have := congrArg List.length h
  simpa using this

/-- C122. A required claim that is missing from an object with nothing else wrong is named, the first one in the order
`aud`, `iat`, `nonce`; the place is the end of the object. What follows the object plays no part. -/
theorem C122_missing (x : Ext) (T : Texts) (b : Bytes) (kvs : List (Str × Json)) (w t rest k : Str)
    (before after : List Str) (hb : Octets b (w ++ (t ++ rest))) (hw : Ws w) (ht : LooseObject claimNames kvs t)
    (hv : ∀ p ∈ kvs, ClaimValue x p.1 p.2) (hc : ∀ k ∈ claimNames, (kvs.map Prod.fst).count k ≤ 1)
    (hl : [str! "aud", str! "iat", str! "nonce"] = before ++ k :: after)
    (hbefore : ∀ k' ∈ before, k' ∈ kvs.map Prod.fst) (hk : k ∉ kvs.map Prod.fst) :
    ∃ text, bodyReport x T b = some text ∧
      Report b (str! "missing field `" ++ k ++ str! "`") (w.length + t.length) text := by
  obtain ⟨r, h⟩ := missing_run (T := T) (rest := rest) hw ht hv hc hl hbefore hk
  obtain ⟨text, h1, h2⟩ := body_report hb h
  refine ⟨text, h1, ?_⟩
  have hlen := octets_length hb
  simp only [List.length_append] at hlen
  rw [show b.length - rest.length = w.length + t.length by omega] at h2
  exact h2

/-- C122. A claim that occurs a second time is named; the place is behind its second name. -/
theorem C122_duplicate (x : Ext) (T : Texts) (b : Bytes) (kvs : List (Str × Json)) (t k n s w rest : Str)
    (hb : Octets b (t ++ (s ++ (w ++ ':' :: rest)))) (ht : BodyStart x kvs t) (hk : k ∈ claimNames)
    (hin : k ∈ kvs.map Prod.fst) (hn : StringText k n) (hs : Utf8Text n s) (hw : Ws w) :
    ∃ text, bodyReport x T b = some text ∧
      Report b (str! "duplicate field `" ++ k ++ str! "`") (t.length + s.length + w.length) text := by
  obtain ⟨u, hu, rfl⟩ := hn
  obtain rfl := Json.utf8Text_iff.1 hs
  rw [Json.wide_quoted] at *
  have e : t ++ ('"' :: (Json.wide u ++ ['"']) ++ (w ++ ':' :: rest)) =
      t ++ '"' :: (Json.wide u ++ '"' :: (w ++ ':' :: rest)) := by simp
  obtain ⟨r, h⟩ := start_run (T := T) ht (fun m b w1 w2 hw1 hw2 => lead_duplicate (r := w ++ ':' :: rest) m
    (bodyField_isSome.2 hk) (mem_seenAfter.2 (.inr ⟨bodyField_isSome.2 hk, hin⟩)) hw1 hw2 hu)
  have hend : (endMap (w ++ ':' :: rest)).2 = ':' :: rest := by
    unfold endMap
    rw [bind_ok (got_ws _), skipWs_char hw (by decide)]
    rfl
  rw [Option.getD_none, hend, ← e] at h
  obtain ⟨text, h1, h2⟩ := body_report hb h
  refine ⟨text, h1, ?_⟩
  have hlen := octets_length hb
  simp only [List.length_append, List.length_cons] at hlen h2 ⊢
  rw [show b.length - (rest.length + 1) = t.length + ((Json.wide u).length + ([] : Str).length + 1 + 1) + w.length by
    simp; simp at hlen; omega] at h2
  exact h2

/-- C122. A claim that is not a string is called what it is, and what it should have been: a string, or in the case
of `iat`, `nbf` and `exp` what chrono asks for. The place is behind a literal or number, and in front of an array or
object. So is the date of a JWT as RFC 7519 has it, a number. -/
theorem C122_mistyped (x : Ext) (T : Texts) (b : Bytes) (kvs : List (Str × Json)) (t k n s w w' u y c rest : Str) (v : Json)
    (hb : Octets b (t ++ (s ++ (w ++ ':' :: (w' ++ (y ++ rest)))))) (ht : BodyStart x kvs t) (hk : k ∈ claimNames)
    (hin : k ∉ kvs.map Prod.fst) (hn : StringText k n) (hs : Utf8Text n s) (hw : Ws w) (hw' : Ws w')
    (hv : ValueText v u) (hy : Utf8Text u y) (hc : Called v c) (hrest : AfterValue rest)
    (hnull : v = .null → k ∉ [str! "iss", str! "sub", str! "nbf", str! "exp"]) :
    ∃ text, bodyReport x T b = some text ∧
      Report b (str! "invalid type: " ++ c ++ str! ", expected " ++
          (if k ∈ [str! "iat", str! "nbf", str! "exp"] then T.timeExpected else str! "a string"))
        (t.length + s.length + w.length + 1 + w'.length + readBefore v y) text := by
  obtain ⟨q, hq, rfl⟩ := hn
  obtain rfl := Json.utf8Text_iff.1 hs
  obtain rfl := Json.utf8Text_iff.1 hy
  rw [Json.wide_quoted] at *
  have hr : Json.Ends rest := by
    intro x hx
    have := hrest x hx
    simp only [List.mem_cons, List.not_mem_nil, or_false] at this
    rcases this with rfl | rfl | rfl | rfl | rfl | rfl <;> decide
  obtain ⟨f, r', hf, h, hl⟩ := field_wrong x T hk hw' hc hv hr hnull
  have e : t ++ ('"' :: (Json.wide q ++ ['"']) ++ (w ++ ':' :: (w' ++ (Json.wide u ++ rest)))) =
      t ++ '"' :: (Json.wide q ++ '"' :: (w ++ ':' :: (w' ++ (Json.wide u ++ rest)))) := by simp
  obtain ⟨r, h⟩ := start_run (T := T) ht (fun m b w1 w2 hw1 hw2 => lead_value m hf
    (fun hm => (mem_seenAfter.1 hm).elim (by simp) fun h => hin h.2) hw1 hw2 hq hw h)
  rw [Option.getD_some, ← e] at h
  obtain ⟨text, h1, h2⟩ := body_report hb h
  refine ⟨text, h1, ?_⟩
  have hlen := octets_length hb
  simp only [List.length_append, List.length_cons, List.length_nil] at hlen hl ⊢
  rw [show b.length - r'.length = t.length + ((Json.wide q).length + (0 + 1) + 1) + w.length + 1 + w'.length +
    readBefore v (Json.wide u) by omega] at h2
  exact h2

/-- C122. A time that cannot be read is reported as chrono reports it; the place is behind it. -/
theorem C122_time (x : Ext) (T : Texts) (b : Bytes) (kvs : List (Str × Json)) (t k n s w w' v u y rest : Str)
    (hb : Octets b (t ++ (s ++ (w ++ ':' :: (w' ++ (y ++ rest)))))) (ht : BodyStart x kvs t)
    (hk : k ∈ [str! "iat", str! "nbf", str! "exp"]) (hin : k ∉ kvs.map Prod.fst) (hn : StringText k n)
    (hs : Utf8Text n s) (hw : Ws w) (hw' : Ws w') (hv : StringText v u) (hy : Utf8Text u y)
    (hp : x.parseTime v = none) :
    ∃ text, bodyReport x T b = some text ∧
      Report b (T.time v) (t.length + s.length + w.length + 1 + w'.length + y.length) text := by
  obtain ⟨q, hq, rfl⟩ := hn
  obtain ⟨p, hp', rfl⟩ := hv
  obtain rfl := Json.utf8Text_iff.1 hs
  obtain rfl := Json.utf8Text_iff.1 hy
  simp only [Json.wide_quoted] at *
  obtain ⟨f, hf, h⟩ := field_time x T (r := rest) hk hw' hp' hp
  have e : t ++ ('"' :: (Json.wide q ++ ['"']) ++ (w ++ ':' :: (w' ++ ('"' :: (Json.wide p ++ ['"']) ++ rest)))) =
      t ++ '"' :: (Json.wide q ++ '"' :: (w ++ ':' :: (w' ++ '"' :: (Json.wide p ++ '"' :: rest)))) := by simp
  obtain ⟨r, h⟩ := start_run (T := T) ht (fun m b w1 w2 hw1 hw2 => lead_value m hf
    (fun hm => (mem_seenAfter.1 hm).elim (by simp) fun h => hin h.2) hw1 hw2 hq hw h)
  rw [Option.getD_some, ← e] at h
  obtain ⟨text, h1, h2⟩ := body_report hb h
  refine ⟨text, h1, ?_⟩
  have hlen := octets_length hb
  simp only [List.length_append, List.length_cons, List.length_nil] at hlen ⊢
  rw [show b.length - rest.length = t.length + ((Json.wide q).length + (0 + 1) + 1) + w.length + 1 + w'.length +
    ((Json.wide p).length + (0 + 1) + 1) by omega] at h2
  exact h2

namespace Ex

/-- Texts of other libraries, shortened. -/
def texts : Texts where
  debug s := '"' :: (s ++ ['"'])
  time _ := str! "input contains invalid characters"
  timeExpected := str! "an RFC 3339 formatted date and time string"

/-- Some reports about headers. -/
example : headerReport texts (utf8Encode (str! "{\"alg\":\"ES256\"}")) =
    some (str! "missing field `typ` at line 1 column 15") := by decide +kernel
example : headerReport texts (utf8Encode (str! "{\"typ\":\"x\",\n \"alg\":\"ES1\"}")) =
    some (unknownVariant (str! "ES1") algNames ++ str! " at line 2 column 12") := by decide +kernel
example : headerReport texts (utf8Encode (str! "[]")) =
    some (str! "invalid type: sequence, expected struct ProofJwtHeader at line 1 column 0") := by decide +kernel
example : headerReport texts [] = some (str! "EOF while parsing a value at line 1 column 0") := by decide +kernel

/-- Some reports about bodies: a numeric date, a repeated claim, a missing claim, an array that is too short, text that
breaks off. -/
example : bodyReport Ex.ext texts (utf8Encode (str! "{\"aud\":\"a\",\n\"iat\": 1684000000}")) = some (str!
    "invalid type: integer `1684000000`, expected an RFC 3339 formatted date and time string at line 2 column 17") := by
  decide +kernel
example : bodyReport Ex.ext texts (utf8Encode (str! "{\"aud\":\"a\",\"aud\" : 1}")) =
    some (str! "duplicate field `aud` at line 1 column 17") := by decide +kernel
example : bodyReport Ex.ext texts (utf8Encode (str! "{\"aud\":\"a\"}")) =
    some (str! "missing field `iat` at line 1 column 11") := by decide +kernel
example : bodyReport Ex.ext texts (utf8Encode (str! "[null,\"a\"]")) =
    some (str! "invalid length 2, expected struct ProofJwtBody with 7 elements at line 1 column 10") := by decide +kernel
example : bodyReport Ex.ext texts (utf8Encode (str! "{\"aud\":\"a")) =
    some (str! "EOF while parsing a string at line 1 column 9") := by decide +kernel

/-- A header that can be read. -/
example : ReadableHeader (utf8Encode (str! "{\"typ\":\"x\",\"alg\":\"ES256\"}")) :=
  (C122_header texts _).1.1 (by decide +kernel)

theorem plain : ∀ (v : Str), (∀ c ∈ v, 0x20 ≤ c.toNat ∧ c ≠ '"' ∧ c ≠ '\\') → CharsText v v
  | [], _ => .nil
  | c :: v, h => .unescaped c v v (h c (by simp)).1 (h c (by simp)).2.1 (h c (by simp)).2.2
      (plain v fun d hd => h d (by simp [hd]))

theorem one : ValueText (.num 1) (str! "1") :=
  .integer 1 _ (.nonneg 1 _ ⟨[1], (Json.digitsText_iff).2 ⟨by decide, by decide, by decide⟩, by decide, by decide⟩ (by decide))

/-- A numeric date, whatever follows. -/
theorem numeric_date (b' : Bytes) : ∃ text, bodyReport Ex.ext texts (utf8Encode (str! "{\"iat\":1,") ++ b') = some text ∧
    Report (utf8Encode (str! "{\"iat\":1,") ++ b')
      (str! "invalid type: integer `1`, expected an RFC 3339 formatted date and time string") 8 text :=
  C122_mistyped Ex.ext texts _ [] (str! "{") (str! "iat") (str! "\"iat\"") (str! "\"iat\"") [] [] (str! "1") (str! "1")
    (str! "integer `1`") (',' :: octets b') (.num 1)
    (by
      refine Json.octets_iff.2 ?_
      simp only [octets, List.map_append]
      rfl)
    (.brace [] [] Ws.nil Ws.nil) (by decide) (by decide) ⟨_, plain (str! "iat") (by decide), rfl⟩
    (Json.utf8Text_iff.2 (by decide)) Ws.nil Ws.nil one (Json.utf8Text_iff.2 (by decide))
    (.integer 1 (str! "1") (Json.integerText_iff.2 (by decide))) (by intro c hc; cases hc; decide) (by simp)

/-- A numeric date with an exponent is called by its value. -/
example : ∃ text, bodyReport Ex.ext texts (utf8Encode (str! "{\"iat\":1.6e9}")) = some text ∧
    Report (utf8Encode (str! "{\"iat\":1.6e9}"))
      (str! "invalid type: floating point `1600000000`, expected an RFC 3339 formatted date and time string") 12 text := by
  have hv : ValueText (.float ⟨false, 6710886400000000, -22⟩) (str! "1.6e9") := by
    obtain ⟨t, ht, -, e⟩ := Json.readNumber_sound (neg := false) (s := str! "1.6e9") (r := [])
      (j := .float ⟨false, 6710886400000000, -22⟩) (by decide +kernel)
    rw [List.append_nil] at e
    subst e
    exact ht
  exact C122_mistyped Ex.ext texts _ [] (str! "{") (str! "iat") (str! "\"iat\"") (str! "\"iat\"") [] [] (str! "1.6e9")
    (str! "1.6e9") (str! "floating point `1600000000`") ['}'] (.float ⟨false, 6710886400000000, -22⟩)
    (Json.octets_iff.2 (by decide)) (.brace [] [] Ws.nil Ws.nil) (by decide) (by decide)
    ⟨_, plain (str! "iat") (by decide), rfl⟩ (Json.utf8Text_iff.2 (by decide)) Ws.nil Ws.nil hv
    (Json.utf8Text_iff.2 (by decide)) (.float _ (str! "1600000000") ((displayed_iff (by unfold IsDouble; decide)).2 (by decide +kernel)))
    (by intro c hc; cases hc; decide) (by simp)

example (b' : Bytes) : ¬ ReadableBody Ex.ext (utf8Encode (str! "{\"iat\":1,") ++ b') := by
  obtain ⟨text, h, -⟩ := numeric_date b'
  intro hr
  rw [(C122_body Ex.ext texts _).1.2 hr] at h
  cases h

/-- An audience. -/
theorem audience : LooseMember claimNames (str! "aud") (.str (str! "a")) (str! "\"aud\":\"a\"") :=
  .known (str! "aud") (.str (str! "a")) (str! "\"aud\"") (str! "\"aud\"") [] [] (str! "\"a\"") (str! "\"a\"") (by decide)
    ⟨_, plain (str! "aud") (by decide), rfl⟩ (Json.utf8Text_iff.2 (by decide)) Ws.nil Ws.nil
    (.string (str! "a") _ ⟨_, plain (str! "a") (by decide), rfl⟩) (by decide) (Json.utf8Text_iff.2 (by decide))

theorem audience_value : ClaimValue Ex.ext (str! "aud") (.str (str! "a")) :=
  ⟨fun h => absurd h (by decide), fun _ => ⟨_, rfl⟩, fun h => absurd h (by decide), fun h => absurd h (by decide)⟩

/-- A body with nothing but an audience. -/
example : ∃ text, bodyReport Ex.ext texts (utf8Encode (str! "{\"aud\":\"a\"} ")) = some text ∧
    Report (utf8Encode (str! "{\"aud\":\"a\"} ")) (str! "missing field `iat`") 11 text :=
  C122_missing Ex.ext texts _ [(str! "aud", .str (str! "a"))] [] (str! "{\"aud\":\"a\"}") [' '] (str! "iat")
    [str! "aud"] [str! "nonce"] (Json.octets_iff.2 (by decide)) Ws.nil
    (.members _ _ [] [] _ ['}'] Ws.nil audience (.close [] Ws.nil))
    (by intro p hp; cases List.mem_singleton.1 hp; exact audience_value) (by decide) rfl (by decide) (by decide)

/-- A second audience. -/
example : ∃ text, bodyReport Ex.ext texts (utf8Encode (str! "{\"aud\":\"a\",\"aud\" : 1}")) = some text ∧
    Report (utf8Encode (str! "{\"aud\":\"a\",\"aud\" : 1}")) (str! "duplicate field `aud`") 17 text :=
  C122_duplicate Ex.ext texts _ [(str! "aud", .str (str! "a"))] (str! "{\"aud\":\"a\",") (str! "aud") (str! "\"aud\"")
    (str! "\"aud\"") [' '] (str! " 1}") (Json.octets_iff.2 (by decide))
    (.claim [] ['{'] _ _ _ [] [] (.brace [] [] Ws.nil Ws.nil) audience audience_value (by simp) Ws.nil Ws.nil)
    (by decide) (by decide) ⟨_, plain (str! "aud") (by decide), rfl⟩ (Json.utf8Text_iff.2 (by decide))
    (by intro c hc; cases List.mem_singleton.1 hc; decide)

/-- A date that is none. -/
example : ∃ text, bodyReport Ex.ext texts (utf8Encode (str! "{\"iat\":\"a\"}")) = some text ∧
    Report (utf8Encode (str! "{\"iat\":\"a\"}")) (str! "input contains invalid characters") 10 text :=
  C122_time Ex.ext texts _ [] (str! "{") (str! "iat") (str! "\"iat\"") (str! "\"iat\"") [] [] (str! "a") (str! "\"a\"")
    (str! "\"a\"") ['}'] (Json.octets_iff.2 (by decide)) (.brace [] [] Ws.nil Ws.nil) (by decide) (by decide)
    ⟨_, plain (str! "iat") (by decide), rfl⟩ (Json.utf8Text_iff.2 (by decide)) Ws.nil Ws.nil
    ⟨_, plain (str! "a") (by decide), rfl⟩ (Json.utf8Text_iff.2 (by decide)) (by decide +kernel)

/-- A proof with the header `{}`. -/
example : ProofJwt.fromStr (withJson Ex.ext texts) (str! "e30.e30") =
    .err (.any (str! "missing field `typ` at line 1 column 2")) :=
  (C122_jwt Ex.ext texts _ (str! "e30") (str! "e30") [] [0x7b, 0x7d] [0x7b, 0x7d] (by decide +kernel)
    ((C44_base64url_rfc4648 _ _).1.1 (by decide +kernel)) ((C44_base64url_rfc4648 _ _).1.1 (by decide +kernel))).1 _
    (by decide +kernel)

end Ex

end Oid4vci
