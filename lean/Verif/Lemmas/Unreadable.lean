import Verif.Lemmas.ReadingText
import Verif.Model.Unreadable
import Verif.Props.Claims

/-! The typed readers read what `ProofJwtHeader.de` and `ProofJwtBody.de` accept. -/

namespace Oid4vci
namespace Reading

open Json
open Spec hiding value

variable {α β : Type}

theorem got_wrongType (T : Texts) (e s : Str) : got (wrongType T e : Reader α) s = none := by
  unfold wrongType
  rw [got_settle]
  cases s with
  | nil => simp
  | cons c s =>
    have hb : ∀ {γ : Type} (f : Reader γ) (m : γ → Str) (s : Str),
        got (f >>= fun a => (custom (m a) : Reader α)) s = none := by
      intro γ f m s
      rw [got_bind]
      cases got f s <;> rfl
    simp only [got_bind, got_peek, Option.bind_some, List.head?_cons]
    repeat' split
    all_goals first
      | rfl
      | (simp only [got_bind, got_eat, Option.bind_some, List.tail_cons, got_custom]
         try (cases got _ _ <;> rfl))

/-- The text of a string in quotes. -/
def Quoted (v t : Str) : Prop := ∃ u, CharsText v u ∧ t = '"' :: (wide u ++ ['"'])

theorem reads_visitStr (T : Texts) (e : Str) (visit : Str → Reader α) (p : Str → Option α)
    (hv : ∀ s r, got (visit s) r = (p s).map fun a => (a, r)) :
    Reads (visitStr T e visit) fun a t => ∃ v, Quoted v t ∧ p v = some a where
  sound := by
    intro s a r hn h
    unfold visitStr at h
    rw [got_settle] at h
    rcases skipWs_cases s with ⟨w, hw, -, hsk⟩ | ⟨w, c, r0, hw, rfl, hsk⟩
    · simp [hsk] at h
    simp only [got_bind, got_ws, Option.bind_some, hsk, List.head?_cons] at h
    split at h
    · subst_vars
      simp only [got_bind, got_eat, Option.bind_some, List.tail_cons, Option.bind_eq_some_iff, hv,
        Option.map_eq_some_iff, Prod.mk.injEq] at h
      obtain ⟨⟨v, r1⟩, h1, a', h2, rfl, rfl⟩ := h
      obtain ⟨u, hu, rfl⟩ := (got_string hn.of_append.2.of_cons).1 h1
      exact ⟨w, _, hw, ⟨v, ⟨u, hu, rfl⟩, h2⟩, by simp⟩
    · rw [got_wrongType] at h; cases h
  complete := by
    rintro w t a r hw ⟨v, ⟨u, hu, rfl⟩, h2⟩ _
    unfold visitStr
    rw [got_settle, List.append_assoc]
    have : skipWs (w ++ ('"' :: (wide u ++ ['"']) ++ r)) = '"' :: (wide u ++ '"' :: r) := by
      rw [List.cons_append, List.append_assoc]; exact skipWs_char hw (by decide)
    simp only [got_bind, got_ws, this, Option.bind_some]
    simp [ string_complete hu, hv, h2]

theorem quoted_val {d : Nat} {v t : Str} : Quoted v t ↔ Val d (.str v) t := val_str.symm

/-- A string with a property. -/
def IsStr (p : Str → Prop) (j : Json) : Prop := ∃ v, j = .str v ∧ p v

theorem Reads.congr {f : Reader α} {R R' : α → Str → Prop} (h : Reads f R) (hR : ∀ a t, R a t ↔ R' a t) : Reads f R' where
  sound hn hg := by
    obtain ⟨w, t, hw, ht, e⟩ := h.sound hn hg
    exact ⟨w, t, hw, (hR _ _).1 ht, e⟩
  complete hw ht hr := h.complete hw ((hR _ _).2 ht) hr

theorem reads_text (T : Texts) (d : Nat) : Reads (readText T) fun j t => Val d j t ∧ IsStr (fun _ => True) j := by
  refine (reads_visitStr T _ _ (fun v => some (.str v)) (by intro s r; rfl)).congr fun j t => ?_
  constructor
  · rintro ⟨v, hq, h⟩
    cases h
    exact ⟨quoted_val.1 hq, v, rfl, trivial⟩
  · rintro ⟨h, v, rfl, -⟩
    exact ⟨v, quoted_val.2 h, rfl⟩

theorem reads_time (x : Ext) (T : Texts) (d : Nat) :
    Reads (readTime x T) fun j t => Val d j t ∧ IsStr (fun v => (x.parseTime v).isSome) j := by
  refine (reads_visitStr T _ _ (fun v => if (x.parseTime v).isSome then some (.str v) else none) ?_).congr fun j t => ?_
  · intro s r
    cases x.parseTime s <;> rfl
  constructor
  · rintro ⟨v, hq, h⟩
    split at h
    · cases h
      exact ⟨quoted_val.1 hq, v, rfl, by assumption⟩
    · cases h
  · rintro ⟨h, v, rfl, hp⟩
    exact ⟨v, quoted_val.2 h, by rw [if_pos hp]⟩

theorem val_null {d : Nat} {t : Str} : Val d .null t ↔ t = str! "null" := by
  constructor
  · rintro ⟨u, hu, -, rfl⟩
    cases hu
    rfl
  · rintro rfl
    exact ⟨_, .null, by simp [depth], rfl⟩

theorem val_n {d : Nat} {j : Json} {t : Str} (h : Val d j ('n' :: t)) : j = .null := by
  obtain ⟨u, hu, -, e⟩ := h
  have hnum : ∀ {l : Lexical} {u : Str}, NumberText l u → 'n' :: t = wide u → False := by
    intro l u hn e
    rw [wide_eq_self (number_ascii hn)] at e
    rcases number_complete hn (r := []) (by intro c hc; simp at hc) with ⟨t', rfl, -⟩ | ⟨c, t', rfl, hd, -⟩
    · simp at e
    · simp only [List.cons.injEq] at e
      rw [← e.1] at hd
      exact absurd hd (by decide)
  cases hu with
  | null => rfl
  | true => simp [show wide (str! "true") = str! "true" from rfl] at e
  | false => simp [show wide (str! "false") = str! "false" from rfl] at e
  | integer _ _ h => exact (hnum h e).elim
  | float _ _ h _ => exact (hnum h e).elim
  | string v s h => obtain ⟨u, -, rfl⟩ := h; rw [wide_quoted] at e; simp at e
  | emptyArray => rw [wide_ascii (by decide)] at e; simp at e
  | array => rw [wide_ascii (by decide)] at e; simp at e
  | emptyObject => rw [wide_ascii (by decide)] at e; simp at e
  | object => rw [wide_ascii (by decide)] at e; simp at e

theorem reads_option {f : Reader Json} {d : Nat} {P : Json → Prop} (h : Reads f fun j t => Val d j t ∧ P j) :
    Reads (option f) fun j t => Val d j t ∧ (j = .null ∨ P j) where
  sound := by
    intro s a r hn hg
    unfold option at hg
    rcases skipWs_cases s with ⟨w, hw, rfl, hsk⟩ | ⟨w, c, r0, hw, rfl, hsk⟩
    · simp only [got_bind, got_ws, Option.bind_some, hsk, List.head?_nil] at hg
      obtain ⟨w', t, hw', ⟨ht, hP⟩, e⟩ := h.sound (by intro c hc; cases hc) hg
      obtain ⟨c, t', rfl, -⟩ := val_cons ht
      simp at e
    simp only [got_bind, got_ws, Option.bind_some, hsk, List.head?_cons] at hg
    split at hg
    · rename_i hc
      cases Option.some.inj hc
      simp only [got_bind, got_eat, Option.bind_some, List.tail_cons, Option.bind_eq_some_iff, got_pure,
        Option.some.injEq, Prod.mk.injEq] at hg
      obtain ⟨⟨_, r1⟩, h1, rfl, rfl⟩ := hg
      obtain rfl := ident_sound h1
      exact ⟨w, str! "null", hw, ⟨val_null.2 rfl, .inl rfl⟩, by simp⟩
    · obtain ⟨w', t, hw', ⟨ht, hP⟩, e⟩ := h.sound hn.of_append.2 hg
      exact ⟨w ++ w', t, Ws.append hw hw', ⟨ht, .inr hP⟩, by rw [e]; simp⟩
  complete := by
    rintro w t a r hw ⟨ht, hP⟩ hr
    unfold option
    obtain ⟨c, t', rfl, c1, -⟩ := val_cons ht
    simp only [got_bind, got_ws, Option.bind_some, List.append_assoc]
    rw [List.cons_append, skipWs_char hw c1]
    simp only [List.head?_cons]
    split
    · rename_i hc
      cases Option.some.inj hc
      have := val_n ht
      subst this
      have e := val_null.1 ht
      simp only [List.cons.injEq, true_and] at e
      subst e
      have := ident_complete (str! "ull") r
      simp only [List.cons_append, List.nil_append] at this
      simp [this]
    · rename_i hc
      rcases hP with rfl | hP
      · have e := val_null.1 ht
        simp only [List.cons.injEq] at e
        exact absurd (by rw [e.1]) hc
      · exact h.complete (w := []) Ws.nil ⟨ht, hP⟩ hr

/-! ### Variants -/

theorem got_variantName (T : Texts) (names : List Str) :
    Reads (variantName T names) fun k t => Quoted k t ∧ k ∈ names := by
  refine (reads_visitStr T _ _ (fun v => if v ∈ names then some v else none) ?_).congr fun k t => ?_
  · intro s r
    split <;> rfl
  constructor
  · rintro ⟨v, hq, h⟩
    split at h
    · cases h; exact ⟨hq, by assumption⟩
    · cases h
  · rintro ⟨hq, hk⟩
    exact ⟨k, hq, if_pos hk⟩

theorem reads_unit (T : Texts) : Reads (unit T) fun _ t => t = str! "null" where
  sound := by
    intro s a r hn h
    unfold unit at h
    rw [got_settle] at h
    rcases skipWs_cases s with ⟨w, hw, -, hsk⟩ | ⟨w, c, r0, hw, rfl, hsk⟩
    · simp [hsk] at h
    simp only [got_bind, got_ws, Option.bind_some, hsk, List.head?_cons] at h
    split at h
    · subst_vars
      simp only [got_bind, got_eat, Option.bind_some, List.tail_cons] at h
      obtain rfl := ident_sound h
      exact ⟨w, _, hw, rfl, by simp⟩
    · rw [got_wrongType] at h; cases h
  complete := by
    rintro w t a r hw rfl _
    unfold unit
    have : skipWs (w ++ str! "null" ++ r) = str! "null" ++ r := by
      rw [List.append_assoc]; exact skipWs_char hw (by decide)
    have hi := ident_complete (str! "ull") r
    simp only [List.cons_append, List.nil_append] at hi
    rw [got_settle]
    simp only [got_bind, got_ws, this, Option.bind_some]
    simp [hi]

/-- One of the names, or an object with one of them and `null`. -/
def IsVariant (names : List Str) (j : Json) : Prop :=
  ∃ k ∈ names, j = .str k ∨ j = .obj [(k, .null)]

theorem reads_variant (T : Texts) (names : List Str) (d : Nat) :
    Reads (variant T names) fun j t => Val (d + 1) j t ∧ IsVariant names j where
  sound := by
    intro s a r hn h
    unfold variant at h
    rcases skipWs_cases s with ⟨w, hw, -, hsk⟩ | ⟨w, c, r0, hw, rfl, hsk⟩
    · simp [hsk] at h
    simp only [got_bind, got_ws, Option.bind_some, hsk, List.head?_cons] at h
    split at h
    · subst_vars
      have hn0 := hn.of_append.2.of_cons
      simp only [got_bind, got_eat, Option.bind_some, List.tail_cons, Option.bind_eq_some_iff, got_ws] at h
      obtain ⟨⟨k, r1⟩, h1, ⟨_, r2⟩, h2, ⟨_, r3⟩, h3, h⟩ := h
      obtain ⟨w1, t1, hw1, ⟨⟨u, hu, rfl⟩, hk⟩, rfl⟩ := (got_variantName T names).sound hn0 h1
      obtain ⟨w2, hw2, e2⟩ := colon_sound h2
      have hn2 : Narrow r2 := by
        have := hn0.of_append.2
        simp only at e2
        rw [e2] at this
        exact this.of_append.2.of_cons
      obtain ⟨w3, t3, hw3, rfl, e3⟩ := (reads_unit T).sound hn2 h3
      simp only at e2 e3
      subst e2 e3
      rcases skipWs_cases r3 with ⟨w4, hw4, -, hsk4⟩ | ⟨w4, x, r4, hw4, rfl, hsk4⟩
      · simp [hsk4] at h
      simp only [hsk4, List.head?_cons] at h
      split at h
      · subst_vars
        simp only [got_bind, got_eat, List.tail_cons, Option.bind_some, got_pure, Option.some.injEq, Prod.mk.injEq] at h
        obtain ⟨rfl, rfl⟩ := h
        refine ⟨w, _, hw, ⟨val_obj.2 ⟨d, _, rfl, .more true k .null [] w1 [] u w2 w3 (str! "null") w4 hw1 Ws.nil hu hw2 hw3
          (val_null.2 rfl) (.close _ _ hw4), rfl⟩, k, hk, .inr rfl⟩, ?_⟩
        simp [sep]
      · simp at h
    split at h
    · simp only [got_bind, Option.bind_eq_some_iff, got_pure, Option.some.injEq, Prod.mk.injEq] at h
      obtain ⟨⟨k, r1⟩, h1, rfl, rfl⟩ := h
      obtain ⟨w1, t1, hw1, ⟨hq, hk⟩, e⟩ := (got_variantName T names).sound hn.of_append.2 h1
      exact ⟨w ++ w1, t1, Ws.append hw hw1, ⟨quoted_val.1 hq, k, hk, .inl rfl⟩, by rw [e]; simp⟩
    · simp at h
  complete := by
    rintro w t a r hw ⟨ht, k, hk, rfl | rfl⟩ hr
    · have hq : Quoted k t := quoted_val.2 ht
      have h1 := (got_variantName T names).complete (w := []) Ws.nil ⟨hq, hk⟩ hr
      obtain ⟨u, hu, rfl⟩ := hq
      unfold variant
      have : skipWs (w ++ '"' :: (wide u ++ ['"']) ++ r) = '"' :: (wide u ++ ['"']) ++ r := by
        rw [List.append_assoc]; exact skipWs_char hw (by decide)
      simp only [got_bind, got_ws, this, Option.bind_some]
      simp only [List.cons_append, List.nil_append, List.append_assoc] at h1 ⊢
      simp [h1]
    · obtain ⟨d', t', e, hp, rfl⟩ := val_obj.1 ht
      cases e
      cases hp with
      | more _ _ _ _ w0 w' u w1 w2 t rest hw0 hw' hu hw1 hw2 hv hrest =>
        cases hrest with
        | close _ _ hrest =>
        obtain rfl := val_null.1 hv
        have h1 := (got_variantName T names).complete (w := w0 ++ w') (r := w1 ++ ':' :: (w2 ++ (str! "null" ++ (rest ++ '}' :: r))))
          (Ws.append hw0 hw') ⟨⟨u, hu, rfl⟩, hk⟩ (ws_ends hw1 (by decide))
        have h2 := colon_complete hw1 (w2 ++ (str! "null" ++ (rest ++ '}' :: r)))
        have h3 := (reads_unit T).complete (a := ()) (r := rest ++ '}' :: r) hw2 rfl (ws_ends hrest (by decide))
        have h4 : skipWs (rest ++ '}' :: r) = '}' :: r := skipWs_char hrest (by decide)
        unfold variant
        have h0 : skipWs (w ++ '{' :: (w0 ++ (sep true ++ (w' ++ '"' :: (wide u ++ '"' :: (w1 ++ ':' :: (w2 ++
            (str! "null" ++ rest)))))) ++ ['}']) ++ r) = '{' :: (w0 ++ w' ++ '"' :: (wide u ++ ['"']) ++
              (w1 ++ ':' :: (w2 ++ (str! "null" ++ (rest ++ '}' :: r))))) := by
          rw [List.append_assoc, List.cons_append, skipWs_char hw (by decide)]
          simp [sep]
        simp only [got_bind, got_ws, h0, Option.bind_some, List.head?_cons, if_true, got_eat, List.tail_cons, h1, h2]
        rw [List.append_assoc] at h3
        simp only [h3, Option.bind_some, h4, List.head?_cons, if_true, got_bind, got_eat, List.tail_cons, got_pure]

end Reading
end Oid4vci
