import Verif.Props.Jwt
import Verif.Spec.Commits

/-! C32: exactly which proof JWTs share their signable message. -/

namespace Oid4vci

open Spec

theorem beforeDot_append {p : Str} (q : Str) (h : NoDot p) : beforeDot (p ++ '.' :: q) = p := by
  unfold beforeDot
  induction p with
  | nil => simp
  | cons c p ih =>
    have hc : c ≠ '.' := fun e => h (by simp [e])
    have := ih fun hm => h (by simp [hm])
    simp only [List.cons_append, List.takeWhile_cons, hc, ne_eq, not_false_eq_true, decide_true, if_true]
    rw [this]

theorem signable_cut (x : Ext) (j : ProofJwt) (h : OneDot x j) :
    j.toSignableMessage x = .ok (utf8Encode (if '.' ∈ j.header.ser.print then j.header.ser.print
      else j.header.ser.print ++ '.' :: beforeDot (j.body.ser x).print)) := by
  obtain ⟨hd, b, sig⟩ := j
  obtain ⟨hs, hc⟩ := h
  simp only at hs hc ⊢
  subst hs
  split
  · rename_i hm
    have h1 := List.count_pos_iff.2 hm
    exact C32_body_not_covered x hd b (by omega) ((bodyDotFree_iff x b).2 ((count_zero_iff _).1 (by omega)))
  · rename_i hm
    have h0 : hd.ser.print.count '.' = 0 := (count_zero_iff _).2 hm
    have h1 : (b.ser x).print.count '.' = 1 := by omega
    obtain ⟨p, q, hpq, hp⟩ := exists_cut (c := '.') (s := (b.ser x).print) (List.count_pos_iff.1 (by omega))
    have hq : NoDot q := by
      rw [hpq, List.count_append, List.count_cons_self, (count_zero_iff p).2 hp] at h1
      exact (count_zero_iff q).1 (by omega)
    have hsp : splitOn '.' ((⟨hd, b, none⟩ : ProofJwt).toStr x) = [hd.ser.print, p, q] := by
      rw [ProofJwt.toStr_eq]
      simp only [hpq, List.append_nil]
      rw [splitOn_append _ hm, splitOn_append _ hp, splitOn_not_mem hq]
    have hl := length_splitOn '.' ((⟨hd, b, none⟩ : ProofJwt).toStr x)
    rw [hsp] at hl
    unfold ProofJwt.toSignableMessage countChar
    simp only [List.length_cons, List.length_nil] at hl
    rw [if_pos (by omega)]
    simp only [hsp]
    rw [hpq, beforeDot_append q hp]

theorem header_print_inj {h h' : ProofJwtHeader} {r s : Str} (e : h.ser.print ++ r = h'.ser.print ++ s) :
    h = h' ∧ r = s := by
  obtain ⟨e1, e2⟩ := print_obj_inj (v := h.ser) (w := h'.ser) rfl rfl (header_fits h).1 (header_fits h').1 e
  have := ProofJwtHeader.de_ser h
  rw [e1, ProofJwtHeader.de_ser] at this
  exact ⟨(Option.some.inj this).symm, e2⟩

/-- C32. JWTs with the same message always have the same header. They have the same body too, unless
both are unsigned with exactly one dot in their texts, in the header or after the part of the bodies
on which they agree. Missing: such pairs, whose bodies may differ. -/
theorem C32_same_partial (x : Ext) (i j : ProofJwt) (ti : TimesOk x i.body) (tj : TimesOk x j.body)
    (h : i.toSignableMessage x = j.toSignableMessage x) :
    i.header = j.header ∧ (i.body = j.body ∨ (OneDot x i ∧ OneDot x j ∧
      ('.' ∈ i.header.ser.print ∨ beforeDot (i.body.ser x).print = beforeDot (j.body.ser x).print))) := by
  have mixed : ∀ i j : ProofJwt, OneDot x i → ¬ OneDot x j → i.toSignableMessage x ≠ j.toSignableMessage x := by
    intro i j hi hj h
    have hj' : j.signature ≠ none ∨ (j.header.ser.print.count '.' + (j.body.ser x).print.count '.' ≠ 1) := by
      by_contra hc
      push Not at hc
      exact hj hc
    obtain ⟨n, hn, -, h2⟩ := signable_cases x j
    obtain ⟨u, rfl⟩ := h2 hj'
    rw [signable_cut x i hi, hn] at h
    have h := utf8Encode_injective (Res.ok.inj h)
    split at h
    · have := (header_print_inj (r := []) (by simpa using h)).2
      cases this
    · rename_i hm
      obtain ⟨-, e2⟩ := header_print_inj h
      injection e2 with _ e2
      have h1 : '.' ∈ (i.body.ser x).print :=
        List.count_pos_iff.1 (by have := hi.2; have := (count_zero_iff _).2 hm; omega)
      obtain ⟨p, q, hpq, hp⟩ := exists_cut h1
      rw [hpq, beforeDot_append q hp] at e2
      obtain ⟨-, e4⟩ := print_obj_inj (v := i.body.ser x) (w := j.body.ser x) rfl rfl (body_fits x i.body).1
        (body_fits x j.body).1 (r := []) (s := u ++ '.' :: q) (by rw [List.append_nil, hpq, e2]; simp)
      simp at e4
  by_cases hi : OneDot x i
  · by_cases hj : OneDot x j
    · rw [signable_cut x i hi, signable_cut x j hj] at h
      have h := utf8Encode_injective (Res.ok.inj h)
      split at h <;> split at h
      · rename_i h1 h2
        obtain ⟨e, -⟩ := header_print_inj (r := []) (s := []) (by simpa using h)
        exact ⟨e, .inr ⟨hi, hj, .inl h1⟩⟩
      · have := (header_print_inj (r := []) (by simpa using h)).2
        cases this
      · have := (header_print_inj (s := []) (by simpa using h)).2
        cases this
      · obtain ⟨e, e'⟩ := header_print_inj h
        injection e' with _ e'
        exact ⟨e, .inr ⟨hi, hj, .inr e'⟩⟩
    · exact absurd h (mixed i j hi hj)
  · by_cases hj : OneDot x j
    · exact absurd h.symm (mixed j i hj hi)
    · have key : ∀ {j : ProofJwt}, ¬ OneDot x j →
          j.signature ≠ none ∨ j.header.ser.print.count '.' + (j.body.ser x).print.count '.' ≠ 1 := by
        intro j hj
        by_contra hc
        push Not at hc
        exact hj hc
      obtain ⟨e1, e2⟩ := C32_commits_partial x i j ti tj (key hi) (key hj) h
      exact ⟨e1, .inl e2⟩

/-- C32 is violated by all those pairs: the message is the same. -/
theorem C32_collide (x : Ext) (i j : ProofJwt) (hi : OneDot x i) (hj : OneDot x j) (hh : i.header = j.header)
    (hb : '.' ∈ i.header.ser.print ∨ beforeDot (i.body.ser x).print = beforeDot (j.body.ser x).print) :
    i.toSignableMessage x = j.toSignableMessage x := by
  rw [signable_cut x i hi, signable_cut x j hj, ← hh]
  by_cases h : '.' ∈ i.header.ser.print
  · rw [if_pos h, if_pos h]
  · rw [if_neg h, if_neg h, hb.resolve_left h]

/-- A pair of such JWTs: one dot in the header, and two nonces. -/
example : ∃ i j : ProofJwt, OneDot Ex.ext i ∧ OneDot Ex.ext j ∧ i.header = j.header ∧
    '.' ∈ i.header.ser.print ∧ i.body ≠ j.body := by
  let hd : ProofJwtHeader := ⟨proofTyp, .EdDSA, some (.keyId (str! "did:web:a.b"))⟩
  let b2 : ProofJwtBody := { Ex.plainBody with nonce := str! "other" }
  have hc : hd.ser.print.count '.' = 1 := by
    rw [count_print _ (header_fits _).1]; decide +kernel
  have h1 : (Ex.plainBody.ser Ex.ext).print.count '.' = 0 := by
    rw [count_print _ (body_fits _ _).1]; decide +kernel
  have h2 : (b2.ser Ex.ext).print.count '.' = 0 := by
    rw [count_print _ (body_fits _ _).1]; decide +kernel
  exact ⟨⟨hd, Ex.plainBody, none⟩, ⟨hd, b2, none⟩, ⟨rfl, by simp only [hc, h1]⟩, ⟨rfl, by simp only [hc, h2]⟩, rfl,
    List.count_pos_iff.1 (by simp only [hc]; decide), by decide⟩

/-- A pair with the dot in the bodies, which agree up to it. -/
example : ∃ i j : ProofJwt, OneDot Ex.ext i ∧ OneDot Ex.ext j ∧ i.header = j.header ∧
    beforeDot (i.body.ser Ex.ext).print = beforeDot (j.body.ser Ex.ext).print ∧ i.body ≠ j.body := by
  let hd : ProofJwtHeader := ⟨proofTyp, .EdDSA, none⟩
  let b1 : ProofJwtBody := { Ex.plainBody with nonce := str! "a.b" }
  let b2 : ProofJwtBody := { Ex.plainBody with nonce := str! "a.c" }
  have hc : hd.ser.print.count '.' = 0 := by
    rw [count_print _ (header_fits _).1]; decide +kernel
  have h1 : (b1.ser Ex.ext).print.count '.' = 1 := by
    rw [count_print _ (body_fits _ _).1]; decide +kernel
  have h2 : (b2.ser Ex.ext).print.count '.' = 1 := by
    rw [count_print _ (body_fits _ _).1]; decide +kernel
  exact ⟨⟨hd, b1, none⟩, ⟨hd, b2, none⟩, ⟨rfl, by simp only [hc, h1]⟩, ⟨rfl, by simp only [hc, h2]⟩, rfl,
    by decide +kernel, by decide⟩

end Oid4vci
