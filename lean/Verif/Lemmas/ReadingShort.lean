import Verif.Lemmas.ReadingSame
import Verif.Lemmas.Stable

/-! The messages of readers are short. -/

namespace Oid4vci
namespace Reading

open Json

variable {α β : Type}

/-- Given at most `n` octets, a reader leaves no more, and its message has at most `10 * n + 4000` characters. -/
structure Brief (n : Nat) (f : Reader α) : Prop where
  out : ∀ s : Str, s.length ≤ n → (f s).2.length ≤ s.length ∧ ∀ m l r, f s = (.err m l, r) → m.length ≤ 10 * n + 4000

theorem brief_pure {n : Nat} (a : α) : Brief n (pure a : Reader α) :=
  ⟨fun _ _ => ⟨Nat.le_refl _, fun _ _ _ h => by cases h⟩⟩

theorem brief_bind {n : Nat} {f : Reader α} {g : α → Reader β} (hf : Brief n f)
    (hg : ∀ a, (∃ s r, s.length ≤ n ∧ f s = (.ok a, r)) → Brief n (g a)) : Brief n (f >>= g) := by
  refine ⟨fun s hs => ?_⟩
  have hrun : (f >>= g) s = match f s with
      | (.ok a, r) => g a r
      | (.err m l, r) => (.err m l, r)
      | (.stuck, r) => (.stuck, r) := rfl
  obtain ⟨h1, h2⟩ := hf.out s hs
  rw [hrun]
  rcases h : f s with ⟨a | ⟨m, l⟩ | _, r⟩ <;> rw [h] at h1 h2 <;> simp only at h1 h2 ⊢
  · obtain ⟨h3, h4⟩ := (hg a ⟨s, r, hs, h⟩).out r (by omega)
    exact ⟨by omega, h4⟩
  · exact ⟨h1, fun _ _ _ e => by cases e; exact h2 _ _ _ rfl⟩
  · exact ⟨h1, fun _ _ _ h => by cases h⟩

theorem brief_of_ok {n : Nat} {f : Reader α} (hc : Calm f) (h : ∀ s, ∃ a r, f s = (.ok a, r)) : Brief n f :=
  ⟨fun s _ => ⟨hc.len s, fun m l r hs => by obtain ⟨a, r, e⟩ := h s; rw [e] at hs; cases hs⟩⟩

theorem brief_peek {n : Nat} : Brief n peek := brief_of_ok calm_peek fun _ => ⟨_, _, rfl⟩
theorem brief_eat {n : Nat} : Brief n eat := brief_of_ok calm_eat fun _ => ⟨_, _, rfl⟩
theorem brief_next {n : Nat} : Brief n next := brief_of_ok calm_next fun _ => ⟨_, _, rfl⟩
theorem brief_ws {n : Nat} : Brief n ws := brief_of_ok calm_ws fun _ => ⟨_, _, rfl⟩
theorem brief_digits {n : Nat} : Brief n digits := brief_of_ok calm_digits fun _ => ⟨_, _, rfl⟩

theorem brief_here {n : Nat} {m : Str} (h : m.length ≤ 4000) : Brief n (here m : Reader α) :=
  ⟨fun _ _ => ⟨Nat.le_refl _, fun _ _ _ e => by cases e; omega⟩⟩
theorem brief_ahead {n : Nat} {m : Str} (h : m.length ≤ 4000) : Brief n (ahead m : Reader α) :=
  ⟨fun _ _ => ⟨Nat.le_refl _, fun _ _ _ e => by cases e; omega⟩⟩
theorem brief_custom {n : Nat} {m : Str} (h : m.length ≤ 10 * n + 4000) : Brief n (custom m : Reader α) :=
  ⟨fun _ _ => ⟨Nat.le_refl _, fun _ _ _ e => by cases e; omega⟩⟩
theorem brief_halt {n : Nat} : Brief n (halt : Reader α) :=
  ⟨fun _ _ => ⟨Nat.le_refl _, fun _ _ _ e => by cases e⟩⟩

theorem brief_settle {n : Nat} {f : Reader α} (hf : Brief n f) : Brief n (settle f) := by
  refine ⟨fun s hs => ?_⟩
  obtain ⟨h1, h2⟩ := hf.out s hs
  have hrun : settle f s = match f s with
      | (.err m none, r) => (.err m (some r.length), r)
      | o => o := rfl
  rw [hrun]
  rcases h : f s with ⟨a | ⟨m, _ | l⟩ | _, r⟩ <;> rw [h] at h1 h2 <;> simp only at h1 h2 ⊢
  · exact ⟨h1, h2⟩
  · exact ⟨h1, fun m' l r e => by cases e; exact h2 _ _ _ rfl⟩
  · exact ⟨h1, h2⟩
  · exact ⟨h1, h2⟩

theorem brief_after {n : Nat} {f : Reader α} {c : Reader Unit} (hf : Brief n f) (hc : Brief n c) : Brief n (after f c) := by
  refine ⟨fun s hs => ?_⟩
  have hrun : after f c s = match f s with
      | (.ok a, r) =>
        match c r with
        | (.ok _, r') => (.ok a, r')
        | (.err m l, r') => (.err m l, r')
        | (.stuck, r') => (.stuck, r')
      | (.err m l, r) => (.err m l, (c r).2)
      | (.stuck, r) => (.stuck, r) := rfl
  obtain ⟨h1, h2⟩ := hf.out s hs
  rw [hrun]
  rcases h : f s with ⟨a | ⟨m, l⟩ | _, r⟩ <;> rw [h] at h1 h2 <;> simp only at h1 h2 ⊢
  · obtain ⟨h3, h4⟩ := hc.out r (by omega)
    rcases h' : c r with ⟨b | ⟨m, l⟩ | _, r'⟩ <;> rw [h'] at h3 h4 <;> simp only at h3 h4 ⊢
    · exact ⟨by omega, fun _ _ _ e => by cases e⟩
    · exact ⟨by omega, fun _ _ _ e => by cases e; exact h4 _ _ _ rfl⟩
    · exact ⟨by omega, fun _ _ _ e => by cases e⟩
  · obtain ⟨h3, h4⟩ := hc.out r (by omega)
    exact ⟨by omega, fun _ _ _ e => by cases e; exact h2 _ _ _ rfl⟩
  · exact ⟨h1, fun _ _ _ e => by cases e⟩

theorem brief_ident {n : Nat} : ∀ cs : Str, Brief n (ident cs) := by
  intro cs
  induction cs with
  | nil => exact brief_pure ()
  | cons c cs ih =>
    unfold ident
    refine brief_bind brief_next fun o _ => ?_
    split
    · exact brief_here (by decide)
    · split
      · exact ih
      · exact brief_here (by decide)

/-- Readers built from readers. -/
macro "brief" : tactic => `(tactic| repeat' (first
  | with_reducible exact brief_pure _ | with_reducible exact brief_peek | with_reducible exact brief_next
  | with_reducible exact brief_eat | with_reducible exact brief_ws | with_reducible exact brief_halt
  | with_reducible exact brief_digits | with_reducible exact brief_ident _
  | (with_reducible refine brief_here ?_; decide) | (with_reducible refine brief_ahead ?_; decide)
  | with_reducible assumption | with_reducible apply brief_bind | with_reducible apply brief_settle
  | with_reducible apply brief_after | intro _ | split))

theorem brief_fueled {n : Nat} {loop : Nat → Reader α} (h : ∀ k, Brief n (loop k)) : Brief n (fueled loop) :=
  ⟨fun s hs => (h (2 * s.length + 2)).out s hs⟩

theorem brief_expDigits {n : Nat} (limit : Option Nat) : ∀ k acc, Brief n (expDigits limit k acc) := by
  intro k
  induction k with
  | zero => intro acc; exact brief_halt
  | succ k ih =>
    intro acc
    unfold expDigits
    simp only
    brief
    all_goals exact ih _

theorem brief_hexDigit {n : Nat} : Brief n hexDigit := by unfold hexDigit; brief

theorem brief_hexDigits {n : Nat} : Brief n hexDigits := by
  have := brief_hexDigit (n := n)
  unfold hexDigits
  brief

theorem brief_hexEscape {n : Nat} : Brief n hexEscape := by
  refine ⟨fun s hs => ?_⟩
  have e : hexEscape s = if s.length < 4 then (.err eofString (some 0), []) else hexDigits s := rfl
  rw [e]
  split
  · exact ⟨Nat.zero_le _, fun _ _ _ e => by cases e; exact Nat.le_trans (by decide) (Nat.le_add_left 4000 _)⟩
  · exact brief_hexDigits.out s hs

theorem brief_escape {n : Nat} : Brief n escape := by
  have := brief_hexEscape (n := n)
  unfold escape
  brief

theorem brief_scan {n : Nat} : ∀ k, Brief n (scan k) := by
  intro k
  induction k with
  | zero => exact brief_halt
  | succ k ih =>
    have := brief_escape (n := n)
    unfold scan
    brief

theorem brief_exponent {n : Nat} (ds fs : Str) : Brief n (exponent ds fs) := by
  have : ∀ lim acc, Brief n (fueled fun k => expDigits lim k acc) := fun lim acc =>
    brief_fueled fun k => brief_expDigits lim k acc
  unfold exponent
  brief
  all_goals exact this _ _

theorem brief_fraction {n : Nat} (ds : Str) : Brief n (fraction ds) := by
  unfold fraction
  brief
  all_goals exact brief_exponent _ _

theorem brief_integer {n : Nat} : Brief n integer := by unfold integer; brief

theorem brief_number {n : Nat} (neg : Bool) : Brief n (number neg) := by
  have h1 := brief_integer (n := n)
  unfold number
  simp only
  brief
  all_goals exact brief_fraction _

theorem brief_skipExponent {n : Nat} : Brief n skipExponent := by unfold skipExponent; brief

theorem brief_skipFraction {n : Nat} : Brief n skipFraction := by
  have := brief_skipExponent (n := n)
  unfold skipFraction; brief

theorem brief_skipNumber {n : Nat} : Brief n skipNumber := by
  have := brief_skipFraction (n := n)
  unfold skipNumber; brief

theorem brief_string {n : Nat} : Brief n string := by
  have := brief_fueled (brief_scan (n := n))
  unfold string; brief

theorem brief_skipEscape {n : Nat} : Brief n skipEscape := by
  have := brief_hexEscape (n := n)
  unfold skipEscape; brief

theorem brief_skipChars {n : Nat} : ∀ k, Brief n (skipChars k) := by
  intro k
  induction k with
  | zero => exact brief_halt
  | succ k ih =>
    have := brief_skipEscape (n := n)
    unfold skipChars; brief

theorem brief_skipString {n : Nat} : Brief n (fueled skipChars) := brief_fueled brief_skipChars

theorem brief_skipKey {n : Nat} : Brief n skipKey := by
  have := brief_skipString (n := n)
  unfold skipKey; brief

theorem brief_skip {n : Nat} : ∀ k, Brief n (skip k) ∧ (∀ b, Brief n (skipItems k b)) ∧ ∀ b, Brief n (skipPairs k b) := by
  intro k
  induction k with
  | zero => exact ⟨brief_halt, fun _ => brief_halt, fun _ => brief_halt⟩
  | succ k ih =>
    obtain ⟨i1, i2, i3⟩ := ih
    have h1 := brief_skipString (n := n)
    have h2 := brief_skipNumber (n := n)
    have h3 := brief_skipKey (n := n)
    have i2t := i2 true
    have i2f := i2 false
    have i3t := i3 true
    have i3f := i3 false
    refine ⟨?_, fun b => ?_, fun b => ?_⟩
    · rw [skip]; brief
    · rw [skipItems]; brief
    · rw [skipPairs]; cases b <;> simp only [if_true, Bool.false_eq_true, if_false] <;> brief

theorem brief_ignored {n : Nat} : Brief n ignored := by
  have : Brief n (fueled skip) := brief_fueled fun k => (brief_skip k).1
  unfold ignored; brief

theorem brief_colon {n : Nat} : Brief n colon := by unfold colon; brief

theorem brief_endMap {n : Nat} : Brief n endMap := by unfold endMap; brief

theorem brief_endSeq {n : Nat} : Brief n endSeq := by unfold endSeq; brief

theorem brief_nextKey {n : Nat} (b : Bool) : Brief n (nextKey b) := by
  have := brief_string (n := n)
  unfold nextKey
  cases b <;> simp only [if_true, Bool.false_eq_true, if_false] <;> brief

theorem brief_nextItem {n : Nat} (b : Bool) : Brief n (nextItem b) := by unfold nextItem; brief

theorem brief_value {n : Nat} : ∀ k d, Brief n (value k d) ∧ (∀ b, Brief n (items k d b)) ∧ ∀ b, Brief n (pairs k d b) := by
  intro k
  induction k with
  | zero => exact fun d => ⟨brief_halt, fun _ => brief_halt, fun _ => brief_halt⟩
  | succ k ih =>
    intro d
    have h1 := brief_string (n := n)
    have h2 := brief_number (n := n) true
    have h3 := brief_number (n := n) false
    have h4 := brief_endMap (n := n)
    have h5 := brief_endSeq (n := n)
    have h6 := brief_colon (n := n)
    refine ⟨?_, fun b => ?_, fun b => ?_⟩
    · rw [value.eq_def]
      simp only
      cases d with
      | zero => simp only; brief
      | succ d =>
        have i2 := (ih d).2.1 true
        have i3 := (ih d).2.2 true
        simp only; brief
    · have i1 := (ih d).1
      have i2 := (ih d).2.1 false
      have := brief_nextItem (n := n) b
      rw [items]; brief
    · have i1 := (ih d).1
      have i2 := (ih d).2.2 false
      have := brief_nextKey (n := n) b
      rw [pairs]; brief

/-! ### Texts from the input -/

theorem charsText_length {v t : Str} (h : Spec.CharsText v t) : v.length ≤ t.length := by
  induction h with
  | nil => exact Nat.le_refl _
  | unescaped _ _ _ _ _ _ _ ih => simpa using ih
  | escape _ _ _ _ _ _ ih => simp; omega
  | unicode _ _ _ _ _ _ ih => simp; omega
  | pair _ _ _ _ _ _ _ _ _ _ _ _ _ _ _ ih => simp; omega

theorem utf8_length (s : Str) : s.length ≤ (utf8Encode s).length := by
  induction s with
  | nil => exact Nat.le_refl _
  | cons c s ih =>
    have : utf8Encode (c :: s) = utf8EncodeChar c ++ utf8Encode s := rfl
    rw [this, List.length_append, List.length_cons]
    have : 0 < (utf8EncodeChar c).length := by
      unfold utf8EncodeChar
      simp only
      split
      · simp
      · split
        · simp
        · split <;> simp
    omega

theorem string_length {s v r : Str} (h : string s = (.ok v, r)) : v.length ≤ s.length := by
  have h := got_eq_some.2 h
  unfold string at h
  simp only [got_bind, got_fueled, Option.bind_eq_some_iff] at h
  obtain ⟨⟨t, r'⟩, h1, h2⟩ := h
  obtain ⟨rfl, -⟩ := scan_sound _ h1
  simp only at h2
  split at h2
  · rename_i v' hv
    simp only [got_pure, Option.some.injEq, Prod.mk.injEq] at h2
    obtain ⟨rfl, rfl⟩ := h2
    unfold rawName at hv
    split at hv
    · rename_i k hk
      cases hv
      simp only [Option.bind_eq_some_iff] at hk
      obtain ⟨d, hd, hp⟩ := hk
      obtain ⟨u, hu, rfl⟩ := parseStr_sound _ _ _ hp
      have h3 := charsText_length hu
      have h4 := utf8_length (u ++ ['"'])
      rw [utf8Encode_decode _ _ hd] at h4
      simp only [unoctets, List.length_map, List.length_append] at h4 ⊢
      omega
    · cases hv
  · simp at h2

theorem natDigitsAux_length : ∀ (fuel k n : Nat) (acc : Str), n < 10 ^ (k + 1) →
    (natDigitsAux fuel n acc).length ≤ acc.length + (k + 1) := by
  intro fuel
  induction fuel with
  | zero => intro k n acc _; simp [natDigitsAux]
  | succ fuel ih =>
    intro k n acc h
    rw [natDigitsAux]
    split
    · simp
    · rename_i hne
      cases k with
      | zero => simp at h; omega
      | succ k =>
        have h' : n / 10 < 10 ^ (k + 1) := by
          rw [Nat.div_lt_iff_lt_mul (by decide)]
          rwa [Nat.pow_succ] at h
        have := ih k (n / 10) (Char.ofNat (48 + n % 10) :: acc) h'
        simp only [List.length_cons] at this
        omega

theorem natDigits_length {k n : Nat} (h : n < 10 ^ (k + 1)) : (natDigits n).length ≤ k + 1 := by
  have := natDigitsAux_length (n + 1) k n [] h
  simpa [natDigits] using this

theorem printInt_length {n : Int} (h1 : -2 ^ 63 ≤ n) (h2 : n < 2 ^ 64) : (printInt n).length ≤ 21 := by
  cases n with
  | ofNat n =>
    have := natDigits_length (k := 19) (n := n) (by have : (n : Int) < 2 ^ 64 := h2; omega)
    exact Nat.le_trans this (by decide)
  | negSucc n =>
    have := natDigits_length (k := 19) (n := n + 1) (by omega)
    exact Nat.succ_le_succ this

theorem bound_step {D a A P : Nat} (hD : D ≤ a + 1) (h : a ≤ A) (h' : A + 1 < P) : D < P := by omega

theorem far_below : 2 ^ 53 * 2 ^ 971 * 10 ^ 1074 + 1 < 10 ^ (1399 + 1) := by decide +kernel

theorem decimalBelow_bound {m : Nat} {e : Int} (hm : m < 2 ^ 53) (he : e ≤ 971) : ∀ n ≤ 1384,
    (natDigits (decimalBelow m e n).1).length ≤ 1400 ∧ -1074 ≤ (decimalBelow m e n).2 ∧ (decimalBelow m e n).2 ≤ 309 := by
  intro n
  induction n with
  | zero => intro _; rw [decimalBelow]; exact ⟨by decide, by decide, by decide⟩
  | succ n ih =>
    intro hn
    rw [decimalBelow]
    cases h : decimalAt m e ((n : Int) - 1074) with
    | none => exact ih (by omega)
    | some D =>
      refine ⟨?_, by simp only; omega, by simp only; omega⟩
      have hD : D ≤ m * 2 ^ e.toNat * 10 ^ (-((n : Int) - 1074)).toNat + 1 := by
        unfold decimalAt at h
        simp only at h
        split at h
        · cases h
          exact Nat.le_succ_of_le (Nat.div_le_self _ _)
        · split at h
          · cases h
            exact Nat.succ_le_succ (Nat.div_le_self _ _)
          · cases h
      have h1 : m * 2 ^ e.toNat ≤ 2 ^ 53 * 2 ^ 971 :=
        Nat.mul_le_mul (Nat.le_of_lt hm) (Nat.pow_le_pow_right (by decide) (by omega))
      have h2 : (10 : Nat) ^ (-((n : Int) - 1074)).toNat ≤ 10 ^ 1074 := Nat.pow_le_pow_right (by decide) (by omega)
      have h3 := Nat.mul_le_mul h1 h2
      exact natDigits_length (k := 1399) (bound_step hD h3 far_below)

theorem display_bound {sign ds : Str} {k : Int} {z : Prop} [Decidable z] (h5 : sign.length ≤ 1) (h4 : ds.length ≤ 1400)
    (h2 : -1074 ≤ k) (h3 : k ≤ 309) :
    (sign ++ if z then ['0']
      else if 0 ≤ k then ds ++ List.replicate k.toNat '0'
      else if 0 < (ds.length : Int) + k then
        ds.take ((ds.length : Int) + k).toNat ++ '.' :: ds.drop ((ds.length : Int) + k).toNat
      else str! "0." ++ List.replicate (-((ds.length : Int) + k)).toNat '0' ++ ds).length ≤ 3000 := by
  rw [List.length_append]
  by_cases h6 : z
  · rw [if_pos h6]; simp only [List.length_cons, List.length_nil]; omega
  · rw [if_neg h6]
    by_cases h7 : 0 ≤ k
    · rw [if_pos h7]; simp only [List.length_append, List.length_replicate]; omega
    · rw [if_neg h7]
      by_cases h8 : 0 < (ds.length : Int) + k
      · rw [if_pos h8]; simp only [List.length_append, List.length_cons, List.length_take, List.length_drop]; omega
      · rw [if_neg h8]; simp only [List.length_append, List.length_replicate, List.length_cons, List.length_nil]; omega

theorem displayFloat_length {d : Double} (h : Spec.IsDouble d.mant d.exp) : (displayFloat d).length ≤ 3000 := by
  have h1 := decimalBelow_bound h.1 h.2.2.1 1384 (Nat.le_refl _)
  unfold displayFloat
  generalize decimalBelow d.mant d.exp 1384 = p at h1 ⊢
  exact display_bound (by split <;> simp) h1.1 h1.2.1 h1.2.2

theorem unexpectedNumber_length {neg : Bool} {s r : Str} {j : Json} (h : number neg s = (.ok j, r)) :
    (unexpectedNumber j).length ≤ 3100 := by
  have h := got_eq_some.2 h
  rw [got_number] at h
  obtain ⟨t, ht, -⟩ := readNumber_sound h
  have hr := ValueText.rust ht
  cases j with
  | num n =>
    rw [Spec.RustNumbers] at hr
    have := printInt_length hr.1 hr.2
    simp only [unexpectedNumber, List.length_append, List.length_cons, List.length_nil]
    omega
  | float d =>
    rw [Spec.RustNumbers] at hr
    have := displayFloat_length hr
    simp only [unexpectedNumber, List.length_append, List.length_cons, List.length_nil]
    omega
  | _ => simp [unexpectedNumber]

/-- The texts of other libraries are short: quoting makes at most ten characters of one. -/
structure Modest (T : Texts) : Prop where
  debug : ∀ s, (T.debug s).length ≤ 10 * s.length + 2
  time : ∀ s, (T.time s).length ≤ 200
  timeExpected : T.timeExpected.length ≤ 200

theorem brief_wrongType {n : Nat} {T : Texts} (hT : Modest T) {e : Str} (he : e.length ≤ 200) :
    Brief n (wrongType T e : Reader α) := by
  have h1 := brief_string (n := n)
  have h2 := brief_number (n := n) true
  have h3 := brief_number (n := n) false
  have hm : ∀ u : Str, u.length ≤ 10 * n + 3200 → Brief n (custom (invalidType u e) : Reader α) := by
    intro u hu
    refine brief_custom ?_
    simp only [invalidType, List.length_append, List.length_cons, List.length_nil]
    omega
  have hc : ∀ u : Str, u.length ≤ 3200 → Brief n (custom (invalidType u e) : Reader α) := fun u hu => hm u (by omega)
  unfold wrongType
  refine brief_settle (brief_bind brief_peek fun c _ => ?_)
  split
  · exact brief_ahead (by decide)
  · split
    · exact brief_bind brief_eat fun _ _ => brief_bind (brief_ident _) fun _ _ => hc _ (by decide)
    · split
      · exact brief_bind brief_eat fun _ _ => brief_bind (brief_ident _) fun _ _ => hc _ (by decide)
      · split
        · exact brief_bind brief_eat fun _ _ => brief_bind (brief_ident _) fun _ _ => hc _ (by decide)
        · split
          · refine brief_bind brief_eat fun _ _ => brief_bind h2 ?_
            rintro j ⟨s, r, -, h⟩
            exact hc _ (Nat.le_trans (unexpectedNumber_length h) (by decide))
          · split
            · refine brief_bind h3 ?_
              rintro j ⟨s, r, -, h⟩
              exact hc _ (Nat.le_trans (unexpectedNumber_length h) (by decide))
            · split
              · refine brief_bind brief_eat fun _ _ => brief_bind h1 ?_
                rintro v ⟨s, r, hs, h⟩
                refine hm _ ?_
                have := string_length h
                have := hT.debug v
                simp only [List.length_append, List.length_cons, List.length_nil]
                omega
              · split
                · exact hc _ (by decide)
                · split
                  · exact hc _ (by decide)
                  · exact brief_ahead (by decide)

theorem brief_visitStr {n : Nat} {T : Texts} (hT : Modest T) {e : Str} (he : e.length ≤ 200) {visit : Str → Reader α}
    (h : ∀ s : Str, s.length ≤ n → Brief n (visit s)) : Brief n (visitStr T e visit) := by
  have h1 := brief_string (n := n)
  have h2 := brief_wrongType (α := α) (n := n) hT he
  unfold visitStr
  refine brief_settle (brief_bind brief_ws fun c _ => ?_)
  split
  · exact brief_ahead (by decide)
  · split
    · refine brief_bind brief_eat fun _ _ => brief_bind h1 ?_
      rintro v ⟨s, r, hs, hv⟩
      exact h v (Nat.le_trans (string_length hv) hs)
    · exact h2

theorem brief_unit {n : Nat} {T : Texts} (hT : Modest T) : Brief n (unit T) := by
  have h2 := brief_wrongType (α := Unit) (n := n) hT (e := str! "unit") (by decide)
  unfold unit; brief

theorem brief_option {n : Nat} {f : Reader Json} (hf : Brief n f) : Brief n (option f) := by unfold option; brief

theorem brief_variantName {n : Nat} {T : Texts} (hT : Modest T) {names : List Str} (hn : (oneOf names).length ≤ 1000) :
    Brief n (variantName T names) :=
  brief_visitStr hT (by decide) fun s hs => by
    split
    · exact brief_pure _
    · refine brief_custom ?_
      simp only [unknownVariant, List.length_append, List.length_cons, List.length_nil]
      omega

theorem brief_variant {n : Nat} {T : Texts} (hT : Modest T) {names : List Str} (hn : (oneOf names).length ≤ 1000) :
    Brief n (variant T names) := by
  have h1 := brief_variantName (n := n) hT hn
  have h2 := brief_unit (n := n) hT
  have h3 := brief_colon (n := n)
  unfold variant; brief

theorem nextKey_length {b : Bool} {s r k : Str} (h : nextKey b s = (.ok (some k), r)) : k.length ≤ s.length := by
  have key : ∀ s', s'.length ≤ s.length → ∀ r, (do
      match ← ws with
      | none => ahead eofValue
      | some q =>
        if q = '"' then do
          eat
          let k ← string
          pure (some k)
        else if q = '}' then ahead trailingComma
        else ahead keyMustBeAString : Reader (Option Str)) s' = (.ok (some k), r) → k.length ≤ s.length := by
    intro s' hs' r h
    have h := got_eq_some.2 h
    simp only [got_bind, Option.bind_eq_some_iff] at h
    obtain ⟨⟨o, r1⟩, h1, h⟩ := h
    have l1 := calm_ws.len s'
    rw [got_eq_some.1 h1] at l1
    cases o with
    | none => simp at h
    | some q =>
      simp only at h
      split at h
      · simp only [got_bind, Option.bind_eq_some_iff] at h
        obtain ⟨⟨_, r2⟩, h2, ⟨k', r3⟩, h3, h4⟩ := h
        have l2 := calm_eat.len r1
        rw [got_eq_some.1 h2] at l2
        simp only [got_pure, Option.some.injEq, Prod.mk.injEq] at h4
        obtain ⟨rfl, -⟩ := h4
        have := string_length (got_eq_some.1 h3)
        simp only at l1 l2 this
        omega
      · split at h <;> simp at h
  have h := got_eq_some.2 h
  unfold nextKey at h
  simp only [got_bind, Option.bind_eq_some_iff] at h
  obtain ⟨⟨o, r1⟩, h1, h⟩ := h
  have l1 := calm_ws.len s
  rw [got_eq_some.1 h1] at l1
  cases o with
  | none => simp at h
  | some q =>
    simp only at h
    split at h
    · simp at h
    · split at h
      · cases b with
        | true => exact key r1 l1 r (got_eq_some.1 h)
        | false =>
          simp only [Bool.false_eq_true, if_false] at h
          rw [got_bind] at h
          simp only [Option.bind_eq_some_iff] at h
          obtain ⟨⟨_, r2⟩, h2, h⟩ := h
          have l2 := calm_eat.len r1
          rw [got_eq_some.1 h2] at l2
          exact key r2 (Nat.le_trans l2 l1) r (got_eq_some.1 h)
      · simp at h

theorem brief_members {n : Nat} {fld : Str → Option (Reader Json)} {other : Reader Json}
    (hf : ∀ k f, fld k = some f → Brief n f) (ho : Brief n other) : ∀ i b seen, Brief n (members fld other i b seen) := by
  intro i
  induction i with
  | zero => exact fun _ _ => brief_halt
  | succ i ih =>
    intro b seen
    have h1 := brief_nextKey (n := n) b
    have h2 := brief_colon (n := n)
    unfold members
    refine brief_bind h1 ?_
    rintro o ⟨s, r, hs, hk⟩
    cases o with
    | none => exact brief_pure _
    | some k =>
      simp only
      split
      · split
        · refine brief_custom ?_
          have := nextKey_length hk
          simp only [duplicateField, List.length_append, List.length_cons, List.length_nil]
          omega
        · brief
          · exact hf _ _ (by assumption)
          · exact ih _ _
      · brief
        exact ih _ _

theorem brief_visitMap {n : Nat} {fld : Str → Option (Reader Json)} {other : Reader Json} {required : List Str}
    (hf : ∀ k f, fld k = some f → Brief n f) (ho : Brief n other) (hr : ∀ k ∈ required, k.length ≤ 100) :
    Brief n (visitMap fld other required) := by
  have : Brief n (fueled fun i => members fld other i true []) := brief_fueled fun i => brief_members hf ho i _ _
  unfold visitMap
  refine brief_bind this fun kvs _ => ?_
  split
  · rename_i k hk
    refine brief_custom ?_
    have := hr k (List.mem_of_find?_eq_some hk)
    simp only [missingField, List.length_append, List.length_cons, List.length_nil]
    omega
  · exact brief_pure _

theorem brief_visitSeq {n : Nat} {name : Str} {total : Nat} (hn : name.length ≤ 100) (ht : total < 10) :
    ∀ (fs : List (Reader Json)) (i : Nat), i + fs.length ≤ total → (∀ f ∈ fs, Brief n f) →
    Brief n (visitSeq name total i fs) := by
  intro fs
  induction fs with
  | nil => intro i _ _; exact brief_pure _
  | cons f fs ih =>
    intro i hi h
    simp only [List.length_cons] at hi
    have h1 := h f (by simp)
    have h2 := ih (i + 1) (by omega) fun f hf => h f (by simp [hf])
    have h3 := brief_nextItem (n := n) (decide (i = 0))
    have h4 := natDigits_length (k := 0) (n := i) (by omega)
    have h5 := natDigits_length (k := 0) (n := total) (by omega)
    unfold visitSeq
    brief
    refine brief_custom ?_
    simp only [List.length_append, List.length_cons, List.length_nil]
    omega

theorem brief_text {n : Nat} {T : Texts} (hT : Modest T) : Brief n (readText T) :=
  brief_visitStr hT (by decide) fun _ _ => brief_pure _

theorem brief_time {n : Nat} {T : Texts} (hT : Modest T) (x : Ext) : Brief n (readTime x T) :=
  brief_visitStr hT hT.timeExpected fun s _ => by
    have := hT.time s
    split
    · exact brief_pure _
    · exact brief_custom (by omega)

theorem brief_headerField {n : Nat} {T : Texts} (hT : Modest T) (k : Str) (f : Reader Json) (h : headerField T k = some f) :
    Brief n f := by
  unfold headerField at h
  split at h
  · cases h; exact brief_text hT
  · split at h
    · cases h; exact brief_variant hT (by decide +kernel)
    · cases h

theorem brief_bodyFields {n : Nat} {x : Ext} {T : Texts} (hT : Modest T) : ∀ p ∈ bodyFields x T, Brief n p.2 := by
  intro p hp
  unfold bodyFields at hp
  simp only [List.mem_cons, List.not_mem_nil, or_false] at hp
  rcases hp with rfl | rfl | rfl | rfl | rfl | rfl | rfl
  · exact brief_option (brief_text hT)
  · exact brief_text hT
  · exact brief_option (brief_text hT)
  · exact brief_time hT x
  · exact brief_text hT
  · exact brief_option (brief_time hT x)
  · exact brief_option (brief_time hT x)

theorem brief_bodyField {n : Nat} {x : Ext} {T : Texts} (hT : Modest T) (k : Str) (f : Reader Json)
    (h : bodyField x T k = some f) : Brief n f := by
  unfold bodyField at h
  simp only [Option.map_eq_some_iff] at h
  obtain ⟨p, hp, rfl⟩ := h
  exact brief_bodyFields hT p (List.mem_of_find?_eq_some hp)

theorem brief_header {n : Nat} {T : Texts} (hT : Modest T) : Brief n (document (readHeader T)) := by
  have h0 : Brief n (fueled fun k => value k (Json.maxDepth - 1)) := brief_fueled fun k => (brief_value k _).1
  have h1 := brief_visitMap (n := n) (required := [str! "typ", str! "alg"]) (brief_headerField hT) h0 (by decide)
  have h2 := brief_endMap (n := n)
  have h3 := brief_wrongType (α := Json) (n := n) hT (e := str! "struct ProofJwtHeader") (by decide)
  unfold document readHeader
  brief

theorem brief_body {n : Nat} {T : Texts} (hT : Modest T) (x : Ext) : Brief n (document (readBody x T)) := by
  have h1 := brief_visitMap (n := n) (required := [str! "aud", str! "iat", str! "nonce"]) (brief_bodyField (x := x) hT)
    brief_ignored (by decide)
  have h2 := brief_endMap (n := n)
  have h4 := brief_endSeq (n := n)
  have h5 := brief_visitSeq (n := n) (name := str! "ProofJwtBody") (total := 7) (by decide) (by decide)
    ((bodyFields x T).map Prod.snd) 0 (by simp [bodyFields])
    (by intro f hf; obtain ⟨p, hp, rfl⟩ := List.mem_map.1 hf; exact brief_bodyFields hT p hp)
  have h3 := brief_wrongType (α := Json) (n := n) hT (e := str! "struct ProofJwtBody") (by decide)
  unfold document readBody
  brief

theorem place_sum : ∀ (s : Str) (l c : Nat),
    (s.foldl (fun (p : Nat × Nat) ch => if ch = '\n' then (p.1 + 1, 0) else (p.1, p.2 + 1)) (l, c)).1 +
      (s.foldl (fun (p : Nat × Nat) ch => if ch = '\n' then (p.1 + 1, 0) else (p.1, p.2 + 1)) (l, c)).2 ≤ l + c + s.length := by
  intro s
  induction s with
  | nil => intro l c; simp
  | cons ch s ih =>
    intro l c
    rw [List.foldl_cons]
    split
    · have := ih (l + 1) 0
      simp only [List.length_cons] at this ⊢
      omega
    · have := ih l (c + 1)
      simp only [List.length_cons] at this ⊢
      omega

theorem natDigits_le (n : Nat) : (natDigits n).length ≤ n + 1 :=
  natDigits_length (k := n) (Nat.lt_of_lt_of_le (Nat.lt_pow_self (by decide)) (Nat.pow_le_pow_right (by decide) (by omega)))

theorem report_length {f : Reader Json} {b : Bytes} {text : Str} (hf : Brief b.length f) (h : report f b = some text) :
    text.length ≤ 11 * b.length + 4100 := by
  have hlen : (octets b).length = b.length := by simp [octets]
  have hb := (hf.out (octets b) (by omega)).2
  unfold report at h
  split at h
  · rename_i m l r e
    cases h
    have := hb _ _ _ e
    unfold display
    have hp : (position ((octets b).take ((octets b).length - l))).1 + (position ((octets b).take ((octets b).length - l))).2 ≤
        1 + 0 + ((octets b).take ((octets b).length - l)).length := place_sum _ 1 0
    have h1 := natDigits_le (position ((octets b).take ((octets b).length - l))).1
    have h2 := natDigits_le (position ((octets b).take ((octets b).length - l))).2
    simp only [List.length_take] at hp
    simp only [List.length_append, List.length_cons, List.length_nil]
    omega
  · rename_i m r e
    cases h
    have := hb _ _ _ e
    omega
  · cases h

end Reading
end Oid4vci
