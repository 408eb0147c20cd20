import Mathlib.Data.List.Induction
import Verif.Model.Debug
import Verif.Spec.Quoted

/-! `{:?}` of strings. -/

namespace Oid4vci
namespace Debug

open Spec

theorem numeral_snoc (pre : List Nat) (d : Nat) : numeral 16 (pre ++ [d]) = numeral 16 pre * 16 + d := by
  simp [numeral, List.foldl_append]

theorem hex_digit : ∀ d < 16, (Nat.digitChar d, d) ∈ lowerHex := by decide

theorem hex_le : ∀ p ∈ lowerHex, p.2 < 16 ∧ p.1 = Nat.digitChar p.2 := by decide

/-- The digits of a number are those of `Nat.toDigits`. -/
theorem hexText_complete (n : Nat) : HexText n (Nat.toDigits 16 n) := by
  induction n using Nat.strongRecOn with
  | _ n ih =>
    by_cases h : n < 16
    · rw [Nat.toDigits_of_lt_base h]
      refine ⟨[n], by simp, ⟨[(Nat.digitChar n, n)], ?_, rfl, rfl⟩, ?_, by simp [numeral]⟩
      · intro p hp
        simp only [List.mem_singleton] at hp
        subst hp
        exact hex_digit n h
      · intro h0
        simpa using h0
    · rw [Nat.toDigits_of_base_le (by omega) (by omega)]
      obtain ⟨ds, h1, ⟨ps, hps, e1, e2⟩, h3, h4⟩ := ih (n / 16) (by omega)
      refine ⟨ds ++ [n % 16], by simp, ⟨ps ++ [(Nat.digitChar (n % 16), n % 16)], ?_, by simp [e1], by simp [e2]⟩, ?_, ?_⟩
      · intro p hp
        simp only [List.mem_append, List.mem_singleton] at hp
        rcases hp with hp | rfl
        · exact hps p hp
        · exact hex_digit _ (Nat.mod_lt _ (by omega))
      · intro h0
        exfalso
        have : ds.head? = some 0 := by
          cases ds with
          | nil => exact absurd rfl h1
          | cons a l => simpa using h0
        have := h3 this
        subst this
        simp [numeral] at h4
        omega
      · rw [numeral_snoc, ← h4]
        omega

theorem numeral_pos : ∀ (ds : List Nat), ds ≠ [] → ds.head? ≠ some 0 → 0 < numeral 16 ds := by
  intro ds
  induction ds using List.reverseRecOn with
  | nil => intro h; exact absurd rfl h
  | append_singleton pre d ih =>
    intro _ h
    rw [numeral_snoc]
    cases pre with
    | nil =>
      simp at h
      simp [numeral]
      omega
    | cons a l =>
      have := ih (by simp) (by simpa using h)
      omega

theorem hexText_unique {n : Nat} {s s' : Str} (h : HexText n s) (h' : HexText n s') : s = s' := by
  induction n using Nat.strongRecOn generalizing s s' with
  | _ n ih =>
    have key : ∀ {s}, HexText n s → (n < 16 ∧ s = [Nat.digitChar n]) ∨
        (16 ≤ n ∧ ∃ t, HexText (n / 16) t ∧ s = t ++ [Nat.digitChar (n % 16)]) := by
      rintro s ⟨ds, h1, ⟨ps, hps, rfl, rfl⟩, h3, h4⟩
      rcases List.eq_nil_or_concat ps with rfl | ⟨pre, p, rfl⟩
      · simp at h1
      · simp only [List.concat_eq_append, List.map_append, List.map_cons, List.map_nil] at *
        have hp := hex_le p (hps p (by simp))
        rw [numeral_snoc] at h4
        rcases pre with _ | ⟨q, pre⟩
        · left
          simp only [List.map_nil, numeral, List.foldl_nil] at h4
          have : n = p.2 := by omega
          subst this
          exact ⟨hp.1, by simp [← hp.2]⟩
        · right
          have hne : (List.map Prod.snd (q :: pre)).head? ≠ some 0 := by
            intro h0
            have := h3 (by simpa using h0)
            simp at this
          have hpos := numeral_pos (List.map Prod.snd (q :: pre)) (by simp) hne
          have e1 : n / 16 = numeral 16 (List.map Prod.snd (q :: pre)) := by omega
          have e2 : n % 16 = p.2 := by omega
          refine ⟨by omega, _, ⟨List.map Prod.snd (q :: pre), by simp, ⟨q :: pre, fun r hr => hps r (List.mem_append_left _ hr), rfl, rfl⟩,
            fun h0 => absurd h0 hne, e1⟩, ?_⟩
          rw [e2, ← hp.2]
    rcases key h with ⟨a, rfl⟩ | ⟨a, t, ht, rfl⟩ <;> rcases key h' with ⟨b, rfl⟩ | ⟨b, t', ht', rfl⟩
    · rfl
    · omega
    · omega
    · rw [ih (n / 16) (by omega) ht ht']

theorem hexText_iff {n : Nat} {s : Str} : HexText n s ↔ s = Nat.toDigits 16 n :=
  ⟨fun h => hexText_unique h (hexText_complete n), fun h => h ▸ hexText_complete n⟩

theorem letters_iff {c : Char} : c ∈ letterEscapes.map Prod.snd ↔
    c = '\x00' ∨ c = '\t' ∨ c = '\n' ∨ c = '\r' ∨ c = '"' ∨ c = '\\' := by
  simp only [letterEscapes, List.map_cons, List.map_nil, List.mem_cons, List.not_mem_nil, or_false]

theorem char_iff {plain : Char → Bool} {c : Char} {t : Str} :
    QuotedChar (fun c => plain c = true) c t ↔ t = char plain c := by
  constructor
  · intro h
    cases h with
    | letter e he =>
      simp only [letterEscapes, List.mem_cons, Prod.mk.injEq, List.not_mem_nil, or_false] at he
      rcases he with ⟨rfl, rfl⟩ | ⟨rfl, rfl⟩ | ⟨rfl, rfl⟩ | ⟨rfl, rfl⟩ | ⟨rfl, rfl⟩ | ⟨rfl, rfl⟩ <;> rfl
    | shown hn hp =>
      rw [letters_iff] at hn
      simp only [not_or] at hn
      obtain ⟨h1, h2, h3, h4, h5, h6⟩ := hn
      simp only [char, if_neg h1, if_neg h2, if_neg h3, if_neg h4, if_neg h5, if_neg h6, if_pos hp]
    | number s hn hp hs =>
      rw [letters_iff] at hn
      simp only [not_or] at hn
      obtain ⟨h1, h2, h3, h4, h5, h6⟩ := hn
      rw [hexText_iff.1 hs]
      simp only [char, if_neg h1, if_neg h2, if_neg h3, if_neg h4, if_neg h5, if_neg h6, if_neg hp]
  · rintro rfl
    unfold char
    by_cases h1 : c = '\x00'
    · subst h1; exact .letter _ (by decide)
    by_cases h2 : c = '\t'
    · subst h2; exact .letter _ (by decide)
    by_cases h3 : c = '\r'
    · subst h3; exact .letter _ (by decide)
    by_cases h4 : c = '\n'
    · subst h4; exact .letter _ (by decide)
    by_cases h5 : c = '\\'
    · subst h5; exact .letter _ (by decide)
    by_cases h6 : c = '"'
    · subst h6; exact .letter _ (by decide)
    have hn : c ∉ letterEscapes.map Prod.snd := by
      rw [letters_iff]
      simp [h1, h2, h3, h4, h5, h6]
    rw [if_neg h1, if_neg h2, if_neg h3, if_neg h4, if_neg h5, if_neg h6]
    by_cases hp : plain c
    · rw [if_pos hp]; exact .shown hn hp
    · rw [if_neg hp]; exact .number _ hn hp (hexText_iff.2 rfl)

theorem hex_chars {n : Nat} {c : Char} (h : c ∈ Nat.toDigits 16 n) : c ∈ lowerHex.map Prod.fst := by
  obtain ⟨ds, -, ⟨ps, hps, e, -⟩, -⟩ := hexText_complete n
  rw [e] at h
  obtain ⟨p, hp, rfl⟩ := List.mem_map.1 h
  exact List.mem_map_of_mem (hps p hp)

theorem hex_inj {n n' : Nat} (h : Nat.toDigits 16 n = Nat.toDigits 16 n') : n = n' := by
  obtain ⟨ds, -, ⟨ps, hps, e, rfl⟩, -, e2⟩ := hexText_complete n
  obtain ⟨ds', -, ⟨ps', hps', e', rfl⟩, -, e2'⟩ := hexText_complete n'
  rw [h, e'] at e
  have hv : ∀ p ∈ lowerHex, ∀ q ∈ lowerHex, p.1 = q.1 → p = q := by decide
  have : ∀ (ps qs : List (Char × Nat)), (∀ p ∈ ps, p ∈ lowerHex) → (∀ p ∈ qs, p ∈ lowerHex) →
      ps.map Prod.fst = qs.map Prod.fst → ps = qs := by
    intro ps
    induction ps with
    | nil => intro qs _ _ h; cases qs with
      | nil => rfl
      | cons => simp at h
    | cons p ps ih =>
      intro qs h1 h2 h
      cases qs with
      | nil => simp at h
      | cons q qs =>
        simp only [List.map_cons, List.cons.injEq] at h
        rw [hv p (h1 p (by simp)) q (h2 q (by simp)) h.1,
          ih qs (fun a ha => h1 a (by simp [ha])) (fun a ha => h2 a (by simp [ha])) h.2]
  rw [e2, e2', this ps ps' hps hps' e.symm]

/-- Text up to a character that does not occur in it. -/
theorem split_at {a b r r' : Str} {c : Char} (ha : c ∉ a) (hb : c ∉ b) (h : a ++ c :: r = b ++ c :: r') :
    a = b ∧ r = r' := by
  induction a generalizing b with
  | nil =>
    cases b with
    | nil => exact ⟨rfl, by simpa using h⟩
    | cons x b =>
      simp only [List.nil_append, List.cons_append, List.cons.injEq] at h
      exact absurd h.1 (fun e => hb (by simp [e]))
  | cons x a ih =>
    cases b with
    | nil =>
      simp only [List.nil_append, List.cons_append, List.cons.injEq] at h
      exact absurd h.1 (fun e => ha (by simp [e]))
    | cons y b =>
      simp only [List.cons_append, List.cons.injEq] at h
      obtain ⟨h1, h2⟩ := ih (fun h => ha (by simp [h])) (fun h => hb (by simp [h])) h.2
      exact ⟨by rw [h.1, h1], h2⟩

/-- What a quoted character can be. -/
theorem quotedChar_forms {plain : Char → Prop} {c : Char} {t : Str} (h : QuotedChar plain c t) :
    (∃ e, (e, c) ∈ letterEscapes ∧ t = ['\\', e]) ∨ (c ≠ '\\' ∧ c ≠ '"' ∧ t = [c]) ∨
      t = '\\' :: 'u' :: '{' :: (Nat.toDigits 16 c.toNat ++ ['}']) := by
  cases h with
  | letter e he => exact .inl ⟨e, he, rfl⟩
  | shown hn _ =>
    rw [letters_iff] at hn
    exact .inr (.inl ⟨fun e => hn (by simp [e]), fun e => hn (by simp [e]), rfl⟩)
  | number s _ _ hs => exact .inr (.inr (by rw [hexText_iff.1 hs]; rfl))

theorem letter_inj : ∀ p ∈ letterEscapes, ∀ q ∈ letterEscapes, p.1 = q.1 → p = q := by decide

theorem letter_u : ∀ p ∈ letterEscapes, p.1 ≠ 'u' := by decide

theorem quotedChar_inj {plain plain' : Char → Prop} {c c' : Char} {t t' r r' : Str} (h : QuotedChar plain c t)
    (h' : QuotedChar plain' c' t') (e : t ++ r = t' ++ r') : c = c' ∧ r = r' := by
  rcases quotedChar_forms h with ⟨a, ha, rfl⟩ | ⟨n1, n2, rfl⟩ | rfl <;>
    rcases quotedChar_forms h' with ⟨a', ha', rfl⟩ | ⟨n1', n2', rfl⟩ | rfl <;>
    simp only [List.cons_append, List.nil_append, List.cons.injEq, List.append_assoc] at e
  · have := letter_inj _ ha _ ha' e.2.1
    exact ⟨congrArg Prod.snd this, e.2.2⟩
  · exact absurd e.1.symm n1'
  · exact absurd e.2.1 (letter_u _ ha)
  · exact absurd e.1 n1
  · exact ⟨e.1, e.2⟩
  · exact absurd e.1 n1
  · exact absurd e.2.1.symm (letter_u _ ha')
  · exact absurd e.1.symm n1'
  · have hb : ∀ n, '}' ∉ Nat.toDigits 16 n := fun n h => absurd (hex_chars h) (by decide)
    obtain ⟨h1, h2⟩ := split_at (hb _) (hb _) e.2.2.2
    exact ⟨Char.toNat_inj.1 (hex_inj h1), h2⟩

theorem quote_not_char {plain : Char → Prop} {c : Char} {t r r' : Str} (h : QuotedChar plain c t) :
    t ++ r ≠ '"' :: r' := by
  rcases quotedChar_forms h with ⟨a, ha, rfl⟩ | ⟨n1, n2, rfl⟩ | rfl <;> intro e <;>
    simp only [List.cons_append, List.nil_append, List.cons.injEq] at e
  · exact absurd e.1 (by decide)
  · exact n2 e.1
  · exact absurd e.1 (by decide)

theorem quoted_inj {plain plain' : Char → Prop} : ∀ {s s' : Str} {ps ps' : List Str} {r r' : Str},
    List.Forall₂ (QuotedChar plain) s ps → List.Forall₂ (QuotedChar plain') s' ps' →
    ps.flatten ++ '"' :: r = ps'.flatten ++ '"' :: r' → s = s' ∧ r = r' := by
  intro s
  induction s with
  | nil =>
    intro s' ps ps' r r' h h' e
    cases h
    cases h' with
    | nil => exact ⟨rfl, by simpa using e⟩
    | cons hc _ =>
      simp only [List.flatten_nil, List.nil_append, List.flatten_cons, List.append_assoc] at e
      exact absurd e.symm (quote_not_char hc)
  | cons c s ih =>
    intro s' ps ps' r r' h h' e
    cases h with
    | cons hc hs =>
    cases h' with
    | nil =>
      simp only [List.flatten_nil, List.nil_append, List.flatten_cons, List.append_assoc] at e
      exact absurd e (quote_not_char hc)
    | cons hc' hs' =>
      simp only [List.flatten_cons, List.append_assoc] at e
      obtain ⟨rfl, e⟩ := quotedChar_inj hc hc' e
      obtain ⟨rfl, e⟩ := ih hs hs' e
      exact ⟨rfl, e⟩

theorem parts_iff {plain : Char → Bool} {s : Str} {ps : List Str} :
    List.Forall₂ (QuotedChar fun c => plain c = true) s ps ↔ ps = s.map (char plain) := by
  constructor
  · intro h
    induction h with
    | nil => rfl
    | cons hc _ ih => rw [List.map_cons, ← ih, char_iff.1 hc]
  · rintro rfl
    induction s with
    | nil => exact .nil
    | cons c s ih => exact .cons (char_iff.2 rfl) ih

theorem string_iff {plain : Char → Bool} {s t : Str} :
    QuotedText (fun c => plain c = true) s t ↔ t = string plain s := by
  unfold QuotedText string
  simp only [parts_iff]
  rw [List.flatMap_def]
  constructor
  · rintro ⟨_, rfl, rfl⟩; rfl
  · rintro rfl; exact ⟨_, rfl, rfl⟩

end Debug
end Oid4vci
