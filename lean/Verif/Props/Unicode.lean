import Verif.Spec.Unicode
import Verif.Props.Jwt

/-! C19 for the letter case of all of Unicode: the model's ASCII case mappings decide the two
comparisons exactly as the full mappings do. -/

namespace Oid4vci

open Spec

theorem mapped_ascii {image : Char → Str → Prop} {f : Char → Char}
    (hi : ∀ c : Char, c.toNat < 128 → ∀ p, image c p ↔ p = [f c]) {s t : Str}
    (hs : ∀ c ∈ s, c.toNat < 128) (h : Mapped image s t) : t = s.map f := by
  obtain ⟨ps, hp, rfl⟩ := h
  induction hp with
  | nil => rfl
  | cons h1 _ ih =>
    rw [List.forall_mem_cons] at hs
    rw [(hi _ hs.1 _).1 h1, List.flatten_cons, ih hs.2]
    rfl

theorem mapped_other {image : Char → Str → Prop} {s t target : Str}
    (hi : ∀ c : Char, 128 ≤ c.toNat → ∀ p, image c p → ∃ d ∈ p, d ∉ target)
    (hs : ¬ ∀ c ∈ s, c.toNat < 128) (h : Mapped image s t) : t ≠ target := by
  obtain ⟨ps, hp, rfl⟩ := h
  rintro rfl
  apply hs
  clear hs
  have key : ∀ p ∈ ps, ∀ d ∈ p, d ∈ ps.flatten := fun p hp d hd =>
    List.mem_flatten.2 ⟨p, hp, hd⟩
  intro c hc
  by_contra hlt
  obtain ⟨p, hpm, hcp⟩ : ∃ p ∈ ps, image c p := by
    clear key hi hlt
    induction hp with
    | nil => cases hc
    | cons h1 _ ih =>
      rcases List.mem_cons.1 hc with rfl | hc
      · exact ⟨_, List.mem_cons_self, h1⟩
      · obtain ⟨p, h, h'⟩ := ih hc
        exact ⟨p, List.mem_cons_of_mem _ h, h'⟩
  obtain ⟨d, hd, hn⟩ := hi c (not_lt.1 hlt) p hcp
  exact hn (key p hpm d hd)

theorem eqFold_ascii {s t : Str} (ht : ∀ c ∈ t, c.toNat < 128) (h : EqFold s t) :
    ∀ c ∈ s, c.toNat < 128 := by
  have h2 : ∀ p ∈ letterPairs, p.1.toNat < 128 ∧ p.2.toNat < 128 := by decide
  unfold EqFold at h
  induction h with
  | nil => simp
  | cons h1 _ ih =>
    rw [List.forall_mem_cons] at ht ⊢
    refine ⟨?_, ih ht.2⟩
    rcases h1 with rfl | h1 | h1
    · exact ht.1
    · exact (h2 _ h1).1
    · exact (h2 _ h1).2

theorem lowerCase_ascii {image : Char → Str → Prop} (h : LowerCase image) (c : Char)
    (hc : c.toNat < 128) (p : Str) : image c p ↔ p = [lowerChar c] := by
  by_cases hu : 65 ≤ c.toNat ∧ c.toNat ≤ 90
  · have e : c = Char.ofNat (65 + (⟨c.toNat - 65, by omega⟩ : Fin 26).1) := by
      rw [show 65 + (c.toNat - 65) = c.toNat by omega, Char.ofNat_toNat]
    have hl : lowerChar c = Char.ofNat (97 + (c.toNat - 65)) := by
      unfold lowerChar
      rw [if_pos (show 'A' ≤ c ∧ c ≤ 'Z' from hu)]
      congr 1; omega
    rw [hl]
    conv_lhs => rw [e]
    exact h.upper _ p
  · have hl : lowerChar c = c := by
      unfold lowerChar
      rw [if_neg]
      exact hu
    rw [hl]
    exact h.ascii c hc hu p

theorem upperCase_ascii {image : Char → Str → Prop} (h : UpperCase image) (c : Char)
    (hc : c.toNat < 128) (p : Str) : image c p ↔ p = [upperChar c] := by
  by_cases hu : 97 ≤ c.toNat ∧ c.toNat ≤ 122
  · have e : c = Char.ofNat (97 + (⟨c.toNat - 97, by omega⟩ : Fin 26).1) := by
      rw [show 97 + (c.toNat - 97) = c.toNat by omega, Char.ofNat_toNat]
    have hl : upperChar c = Char.ofNat (65 + (c.toNat - 97)) := by
      unfold upperChar
      rw [if_pos (show 'a' ≤ c ∧ c ≤ 'z' from hu)]
      congr 1; omega
    rw [hl]
    conv_lhs => rw [e]
    exact h.lower _ p
  · have hl : upperChar c = c := by
      unfold upperChar
      rw [if_neg]
      exact hu
    rw [hl]
    exact h.ascii c hc hu p

/-- C19. Under Unicode's full lower-case mapping, too, a JWT's `typ` becomes `openid4vci-proof+jwt`
exactly if it is that string up to ASCII letter case, that is, exactly if the JWT validates: no
character outside ASCII passes for one of its letters. -/
theorem C19_unicode_typ {image : Char → Str → Prop} (hi : LowerCase image) (j : ProofJwt) (t : Str)
    (h : Mapped image j.header.typ t) :
    (t = proofTyp ↔ EqFold j.header.typ proofTyp) ∧ (t = proofTyp ↔ j.validate = .ok ()) := by
  have key : t = proofTyp ↔ EqFold j.header.typ proofTyp := by
    have ha : ∀ c ∈ proofTyp, c.toNat < 128 := by decide +kernel
    by_cases hs : ∀ c ∈ j.header.typ, c.toNat < 128
    · rw [mapped_ascii (lowerCase_ascii hi) hs h]
      exact lowercase_eq_iff _
    · refine iff_of_false (mapped_other ?_ hs h) fun he => hs (eqFold_ascii ha he)
      intro c hc p hp
      by_cases hk : c = Char.ofNat 0x212A
      · subst hk
        rw [hi.kelvin p hp]
        exact ⟨'k', by simp, by decide +kernel⟩
      · obtain ⟨d, hd, hd'⟩ := hi.other c hc hk p hp
        exact ⟨d, hd, fun hm => absurd (ha d hm) (not_lt.2 hd')⟩
  exact ⟨key, key.trans (C19_typ j).symm⟩

/-- C19. Under Unicode's full upper-case mapping, too, a proof type becomes `JWT` exactly if it is
that string up to ASCII letter case. -/
theorem C19_unicode_proofType {image : Char → Str → Prop} (hi : UpperCase image) (s t : Str)
    (h : Mapped image s t) : t = str! "JWT" ↔ EqFold s (str! "JWT") := by
  have ha : ∀ c ∈ str! "JWT", c.toNat < 128 := by decide +kernel
  by_cases hs : ∀ c ∈ s, c.toNat < 128
  · rw [mapped_ascii (upperCase_ascii hi) hs h]
    exact uppercase_eq_iff _
  · refine iff_of_false (mapped_other ?_ hs h) fun he => hs (eqFold_ascii ha he)
    intro c hc p hp
    rcases hi.other c hc p hp with ⟨d, hd, hd'⟩ | hm
    · exact ⟨d, hd, fun hm => absurd (ha d hm) (not_lt.2 hd')⟩
    · revert p
      have : ∀ p ∈ [str! "I", str! "S", str! "SS", str! "FF", str! "FI", str! "FL", str! "FFI",
        str! "FFL", str! "ST"], ∃ d ∈ p, d ∉ str! "JWT" := by decide +kernel
      exact fun p _ hm => this p hm

/-- A lower-case mapping with the two entries that touch ASCII. -/
def Ex.lowerImage (c : Char) (p : Str) : Prop :=
  if c.toNat < 128 then p = [lowerChar c]
  else if c = Char.ofNat 0x212A then p = ['k']
  else if c = Char.ofNat 0x130 then p = ['i', Char.ofNat 0x307]
  else p = [c]

theorem Ex.lowerCase : LowerCase Ex.lowerImage where
  upper n p := by
    have h : (Char.ofNat (65 + n.1)).toNat < 128 ∧ lowerChar (Char.ofNat (65 + n.1)) =
        Char.ofNat (97 + n.1) := by revert n; decide +kernel
    rw [Ex.lowerImage, if_pos h.1, h.2]
  ascii c hc hu p := by
    rw [Ex.lowerImage, if_pos hc]
    have : lowerChar c = c := by
      unfold lowerChar
      rw [if_neg]
      exact hu
    rw [this]
  kelvin p h := by
    rw [Ex.lowerImage, if_neg (by decide), if_pos rfl] at h
    exact h
  other c hc hk p h := by
    rw [Ex.lowerImage, if_neg (not_lt.2 hc), if_neg hk] at h
    split at h
    · exact ⟨Char.ofNat 0x307, by simp [h], by decide⟩
    · exact ⟨c, by simp [h], hc⟩

/-- An upper-case mapping with a few entries that touch ASCII. -/
def Ex.upperImage (c : Char) (p : Str) : Prop :=
  if c.toNat < 128 then p = [upperChar c]
  else if c = Char.ofNat 0x17F then p = ['S']
  else if c = Char.ofNat 0x1E97 then p = ['T', Char.ofNat 0x308]
  else if c = Char.ofNat 0xFB06 then p = ['S', 'T']
  else p = [c]

theorem Ex.upperCase : UpperCase Ex.upperImage where
  lower n p := by
    have h : (Char.ofNat (97 + n.1)).toNat < 128 ∧ upperChar (Char.ofNat (97 + n.1)) =
        Char.ofNat (65 + n.1) := by revert n; decide +kernel
    rw [Ex.upperImage, if_pos h.1, h.2]
  ascii c hc hu p := by
    rw [Ex.upperImage, if_pos hc]
    have : upperChar c = c := by
      unfold upperChar
      rw [if_neg]
      exact hu
    rw [this]
  other c hc p h := by
    rw [Ex.upperImage, if_neg (not_lt.2 hc)] at h
    split at h
    · exact .inr (by rw [h]; decide)
    · split at h
      · exact .inl ⟨Char.ofNat 0x308, by simp [h], by decide⟩
      · split at h
        · exact .inr (by rw [h]; decide)
        · exact .inl ⟨c, by simp [h], hc⟩

/- `jw` and a t with two dots do not become `JWT`. -/
example : Mapped Ex.upperImage (str! "jw" ++ [Char.ofNat 0x1E97]) (str! "JWT" ++ [Char.ofNat 0x308]) :=
  ⟨[['J'], ['W'], ['T', Char.ofNat 0x308]], .cons (by unfold Ex.upperImage; decide)
    (.cons (by unfold Ex.upperImage; decide) (.cons (by unfold Ex.upperImage; decide) .nil)),
    by decide⟩
/- The Kelvin sign becomes `k`, a capital I with dot becomes two characters. -/
example : Mapped Ex.lowerImage [Char.ofNat 0x212A, 'A'] (str! "ka") :=
  ⟨[['k'], ['a']], .cons (by unfold Ex.lowerImage; decide)
    (.cons (by unfold Ex.lowerImage; decide) .nil), by decide⟩
example : ∃ t, Mapped Ex.lowerImage (str! "OPENID4VCI-proof+jwt") t ∧ t = proofTyp :=
  ⟨_, ⟨(str! "OPENID4VCI-proof+jwt").map (fun c => [lowerChar c]),
    List.forall₂_map_right_iff.2 (List.forall₂_same.2 fun c hc => by
      have : ∀ c ∈ str! "OPENID4VCI-proof+jwt", c.toNat < 128 := by decide +kernel
      unfold Ex.lowerImage; rw [if_pos (this c hc)]), rfl⟩, by decide +kernel⟩

end Oid4vci
