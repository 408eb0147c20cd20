import Verif.Lemmas.Reading

/-! The texts from which the reader that reports errors reads a value: those of the grammar. -/

namespace Oid4vci
namespace Reading

open Json
open Spec hiding value

variable {α β : Type}

theorem string_complete {v u : Str} (hu : CharsText v u) (r : Str) : got string (wide u ++ '"' :: r) = some (v, r) := by
  unfold string
  simp only [got_bind, got_fueled, Option.bind_eq_some_iff]
  refine ⟨(wide u ++ ['"'], r), scan_complete hu _ _ (by simp; omega), ?_⟩
  have : rawName (wide u ++ ['"']) = some v :=
    (rawName_iff (Narrow.append (narrow_wide u) (by intro c hc; simp at hc; subst hc; decide))).2 ⟨u, hu, rfl⟩
  simp only [this, got_pure]

/-! ### Grammar over octets -/

/-- The octets of a value of at most `d` levels. -/
def Val (d : Nat) (j : Json) (t : Str) : Prop := ∃ u, ValueText j u ∧ depth j ≤ d ∧ t = wide u

/-- The comma in front of all but the first one. -/
def sep (first : Bool) : Str := if first then [] else [',']

/-- Elements, up to the closing bracket. -/
inductive ItemsOf (R : Json → Str → Prop) : Bool → List Json → Str → Prop
  | close (b : Bool) (w : Str) : Ws w → ItemsOf R b [] w
  | more (b : Bool) (x : Json) (xs : List Json) (w w' t rest : Str) : Ws w → Ws w' → R x t →
      ItemsOf R false xs rest → ItemsOf R b (x :: xs) (w ++ (sep b ++ (w' ++ (t ++ rest))))

/-- Members, up to the closing brace. -/
inductive PairsOf (R : Str → Json → Str → Prop) : Bool → List (Str × Json) → Str → Prop
  | close (b : Bool) (w : Str) : Ws w → PairsOf R b [] w
  | more (b : Bool) (k : Str) (v : Json) (kvs : List (Str × Json)) (w w' u w1 w2 t rest : Str) : Ws w → Ws w' →
      CharsText k u → Ws w1 → Ws w2 → R k v t → PairsOf R false kvs rest →
      PairsOf R b ((k, v) :: kvs)
        (w ++ (sep b ++ (w' ++ '"' :: (wide u ++ '"' :: (w1 ++ ':' :: (w2 ++ (t ++ rest)))))))

theorem itemsOf_ends {R : Json → Str → Prop} {xs : List Json} {t : Str} (h : ItemsOf R false xs t) (r : Str) :
    Ends (t ++ ']' :: r) := by
  cases h with
  | close _ w hw => exact ws_ends hw (by decide)
  | more _ x xs w w' t rest hw =>
    have := ws_ends (c := ',') (t := w' ++ (t ++ rest) ++ ']' :: r) hw (by decide)
    simpa [sep] using this

theorem pairsOf_ends {R : Str → Json → Str → Prop} {kvs : List (Str × Json)} {t : Str} (h : PairsOf R false kvs t)
    (r : Str) : Ends (t ++ '}' :: r) := by
  cases h with
  | close _ w hw => exact ws_ends hw (by decide)
  | more _ k v kvs w w' u w1 w2 t rest hw =>
    have := ws_ends (c := ',') (t := w' ++ '"' :: (wide u ++ '"' :: (w1 ++ ':' :: (w2 ++ (t ++ rest)))) ++ '}' :: r) hw
      (by decide)
    simpa [sep] using this

theorem val_str {d : Nat} {v t : Str} : Val d (.str v) t ↔ ∃ u, CharsText v u ∧ t = '"' :: (wide u ++ ['"']) := by
  constructor
  · rintro ⟨u, hu, -, rfl⟩
    cases hu with
    | string _ _ h => obtain ⟨u, hu, rfl⟩ := h; exact ⟨u, hu, wide_quoted u⟩
  · rintro ⟨u, hu, rfl⟩
    exact ⟨_, .string _ _ ⟨u, hu, rfl⟩, by simp [depth], (wide_quoted u).symm⟩

theorem elementsText_last : ∀ {xs : List Json} {u : Str}, ElementsText xs u → ∃ u', u = u' ++ [']'] := by
  intro xs
  induction xs with
  | nil => intro u h; cases h with | close w hw => exact ⟨w, rfl⟩
  | cons x xs ih =>
    intro u h
    cases h with
    | more x xs w w' s u hw hw' hx hu =>
      obtain ⟨u', rfl⟩ := ih hu
      exact ⟨w ++ ',' :: (w' ++ s ++ u'), by simp⟩

theorem membersText_last : ∀ {kvs : List (Str × Json)} {u : Str}, MembersText kvs u → ∃ u', u = u' ++ ['}'] := by
  intro kvs
  induction kvs with
  | nil => intro u h; cases h with | close w hw => exact ⟨w, rfl⟩
  | cons x xs ih =>
    intro u h
    cases h with
    | more k v xs w w' s u hw hw' hx hu =>
      obtain ⟨u', rfl⟩ := ih hu
      exact ⟨w ++ ',' :: (w' ++ s ++ u'), by simp⟩

theorem elements_last {xs : List Json} {u : Str} (h : ElementsText xs u) : ∃ u', wide u = u' ++ [']'] := by
  obtain ⟨u', rfl⟩ := elementsText_last h
  exact ⟨wide u', by rw [wide_append]; rfl⟩

theorem members_last {kvs : List (Str × Json)} {u : Str} (h : MembersText kvs u) : ∃ u', wide u = u' ++ ['}'] := by
  obtain ⟨u', rfl⟩ := membersText_last h
  exact ⟨wide u', by rw [wide_append]; rfl⟩

theorem items_elements {d : Nat} {xs : List Json} {t : Str} :
    ItemsOf (Val d) false xs t ↔ ∃ u, ElementsText xs u ∧ depthList xs ≤ d ∧ t ++ [']'] = wide u := by
  constructor
  · intro h
    generalize hb : false = b at h
    induction h with
    | close b w hw => exact ⟨w ++ [']'], .close w hw, by simp [depthList], by rw [wide_append, wide_ws hw]; rfl⟩
    | more b x xs w w' t rest hw hw' hx _ ih =>
      subst hb
      obtain ⟨u, hu, hd, e⟩ := ih rfl
      obtain ⟨y, hy, hdy, rfl⟩ := hx
      refine ⟨_, .more _ _ w w' y u hw hw' hy hu, by simp only [depthList]; omega, ?_⟩
      rw [wide_append, wide_ascii (by decide), wide_append, wide_append, wide_ws hw, wide_ws hw', ← e]
      simp [sep]
  · rintro ⟨u, hu, hd, e⟩
    induction xs generalizing u t with
    | nil =>
      cases hu with
      | close w hw =>
        rw [wide_append, wide_ws hw] at e
        have := List.append_cancel_right (e.trans rfl : t ++ [']'] = w ++ [']'])
        subst this
        exact .close _ _ hw
    | cons x xs ih =>
      cases hu with
      | more x xs w w' s u hw hw' hx hu =>
        simp only [depthList] at hd
        obtain ⟨u', hu'⟩ := elements_last hu
        rw [wide_append, wide_ascii (by decide), wide_append, wide_append, wide_ws hw, wide_ws hw', hu'] at e
        have e' : t ++ [']'] = (w ++ (sep false ++ (w' ++ (wide s ++ u')))) ++ [']'] := by rw [e]; simp [sep]
        rw [List.append_cancel_right e']
        exact .more _ _ _ _ _ _ _ hw hw' ⟨s, hx, by omega, rfl⟩ (ih u hu (by omega) hu'.symm)

theorem pairs_members {d : Nat} {kvs : List (Str × Json)} {t : Str} :
    PairsOf (fun _ => Val d) false kvs t ↔ ∃ u, MembersText kvs u ∧ depthMembers kvs ≤ d ∧ t ++ ['}'] = wide u := by
  have hm : ∀ (k u w1 w2 y : Str), Ws w1 → Ws w2 → wide ('"' :: (u ++ ['"']) ++ w1 ++ ':' :: (w2 ++ y)) =
      '"' :: (wide u ++ '"' :: (w1 ++ ':' :: (w2 ++ wide y))) := by
    intro k u w1 w2 y hw1 hw2
    rw [wide_append, wide_append, wide_quoted, wide_ascii (by decide), wide_append, wide_ws hw1, wide_ws hw2]
    simp
  constructor
  · intro h
    generalize hb : false = b at h
    induction h with
    | close b w hw => exact ⟨w ++ ['}'], .close w hw, by simp [depthMembers], by rw [wide_append, wide_ws hw]; rfl⟩
    | more b k v kvs w w' q w1 w2 t rest hw hw' hq hw1 hw2 hx _ ih =>
      subst hb
      obtain ⟨u, hu, hd, e⟩ := ih rfl
      obtain ⟨y, hy, hdy, rfl⟩ := hx
      refine ⟨_, .more _ _ _ w w' _ u hw hw' (.mk k v _ w1 w2 y ⟨q, hq, rfl⟩ hw1 hw2 hy) hu,
        by simp only [depthMembers]; omega, ?_⟩
      rw [wide_append, wide_ascii (by decide), wide_append, wide_append, wide_ws hw, wide_ws hw', hm k _ _ _ _ hw1 hw2,
        ← e]
      simp [sep]
  · rintro ⟨u, hu, hd, e⟩
    induction kvs generalizing u t with
    | nil =>
      cases hu with
      | close w hw =>
        rw [wide_append, wide_ws hw] at e
        have := List.append_cancel_right (e.trans rfl : t ++ ['}'] = w ++ ['}'])
        subst this
        exact .close _ _ hw
    | cons p kvs ih =>
      cases hu with
      | more k v kvs w w' s u hw hw' hx hu =>
        cases hx with
        | mk k v s w1 w2 y hs hw1 hw2 hy =>
        obtain ⟨q, hq, rfl⟩ := hs
        simp only [depthMembers] at hd
        obtain ⟨u', hu'⟩ := members_last hu
        rw [wide_append, wide_ascii (by decide), wide_append, wide_append, wide_ws hw, wide_ws hw',
          hm k _ _ _ _ hw1 hw2, hu'] at e
        have e' : t ++ ['}'] = (w ++ (sep false ++ (w' ++ '"' :: (wide q ++ '"' :: (w1 ++ ':' ::
            (w2 ++ (wide y ++ u'))))))) ++ ['}'] := by rw [e]; simp [sep]
        rw [List.append_cancel_right e']
        exact .more _ _ _ _ _ _ _ _ _ _ _ hw hw' hq hw1 hw2 ⟨y, hy, by omega, rfl⟩ (ih u hu (by omega) hu'.symm)

theorem val_arr {d : Nat} {xs : List Json} {t : Str} : Val d (.arr xs) t ↔
    ∃ d' t', d = d' + 1 ∧ ItemsOf (Val d') true xs t' ∧ t = '[' :: (t' ++ [']']) := by
  constructor
  · rintro ⟨u, hu, hd, rfl⟩
    simp only [depth] at hd
    obtain ⟨d', rfl⟩ : ∃ d', d = d' + 1 := ⟨d - 1, by omega⟩
    cases hu with
    | emptyArray w hw =>
      refine ⟨d', w, rfl, .close _ _ hw, ?_⟩
      rw [wide_ascii (by decide), wide_append, wide_ws hw]; rfl
    | array x xs w s u hw hx hu =>
      simp only [depthList] at hd
      obtain ⟨u', hu'⟩ := elements_last hu
      refine ⟨d', w ++ (sep true ++ ([] ++ (wide s ++ u'))), rfl,
        .more _ _ _ _ _ _ _ hw Ws.nil ⟨s, hx, by omega, rfl⟩ (items_elements.2 ⟨u, hu, by omega, hu'.symm⟩), ?_⟩
      rw [wide_ascii (by decide), wide_append, wide_append, wide_ws hw, hu']
      simp [sep]
  · rintro ⟨d', t', rfl, h, rfl⟩
    cases h with
    | close _ _ hw =>
      refine ⟨_, .emptyArray _ hw, by simp [depth, depthList], ?_⟩
      rw [wide_ascii (by decide), wide_append, wide_ws hw]; rfl
    | more _ x xs w w' t rest hw hw' hx hrest =>
      obtain ⟨y, hy, hdy, rfl⟩ := hx
      obtain ⟨u, hu, hd, e⟩ := items_elements.1 hrest
      refine ⟨_, .array x xs (w ++ w') y u (Ws.append hw hw') hy hu, by simp only [depth, depthList]; omega, ?_⟩
      rw [wide_ascii (by decide), wide_append, wide_append, wide_append, wide_ws hw, wide_ws hw', ← e]
      simp [sep]

theorem val_obj {d : Nat} {kvs : List (Str × Json)} {t : Str} : Val d (.obj kvs) t ↔
    ∃ d' t', d = d' + 1 ∧ PairsOf (fun _ => Val d') true kvs t' ∧ t = '{' :: (t' ++ ['}']) := by
  constructor
  · rintro ⟨u, hu, hd, rfl⟩
    simp only [depth] at hd
    obtain ⟨d', rfl⟩ : ∃ d', d = d' + 1 := ⟨d - 1, by omega⟩
    cases hu with
    | emptyObject w hw =>
      refine ⟨d', w, rfl, .close _ _ hw, ?_⟩
      rw [wide_ascii (by decide), wide_append, wide_ws hw]; rfl
    | object k v kvs w s u hw hx hu =>
      -- put a comma in front and use what is known about the members after the first one
      have h := pairs_members (d := d') (t := ',' :: wide (s ++ u).dropLast) (kvs := (k, v) :: kvs)
      obtain ⟨u', rfl⟩ := membersText_last hu
      have e : (s ++ (u' ++ ['}'])).dropLast = s ++ u' := by rw [← List.append_assoc]; simp
      rw [e] at h
      have h' := h.2 ⟨[] ++ ',' :: ([] ++ s ++ (u' ++ ['}'])), .more k v kvs [] [] s _ Ws.nil Ws.nil hx hu, by omega, by
        rw [List.nil_append, List.nil_append, wide_ascii (by decide), wide_append, wide_append, wide_append]
        simp; rfl⟩
      generalize hz : ',' :: wide (s ++ u') = z at h'
      cases h' with
      | more _ _ _ _ w1 w' q w2 w3 t rest hw1 hw' hq hw2 hw3 hv hrest =>
        have hw1' : w1 = [] := by
          cases w1 with
          | nil => rfl
          | cons c w1 =>
            simp only [List.cons_append, List.cons.injEq] at hz
            have := hw1 c (by simp)
            rw [← hz.1] at this
            simp at this
        subst hw1'
        simp only [sep, Bool.false_eq_true, if_false, List.nil_append, List.cons_append, List.cons.injEq, true_and] at hz
        refine ⟨d', w ++ (sep true ++ (w' ++ '"' :: (wide q ++ '"' :: (w2 ++ ':' :: (w3 ++ (t ++ rest)))))), rfl,
          .more _ _ _ _ _ _ _ _ _ _ _ hw hw' hq hw2 hw3 hv hrest, ?_⟩
        rw [wide_ascii (by decide), wide_append, wide_append, wide_append, wide_ws hw, List.append_assoc w,
          ← List.append_assoc (wide s), ← wide_append s u', hz]
        simp [sep]; rfl
  · rintro ⟨d', t', rfl, h, rfl⟩
    cases h with
    | close _ _ hw =>
      refine ⟨_, .emptyObject _ hw, by simp [depth, depthMembers], ?_⟩
      rw [wide_ascii (by decide), wide_append, wide_ws hw]; rfl
    | more _ k v kvs w w' q w1 w2 t rest hw hw' hq hw1 hw2 hx hrest =>
      obtain ⟨y, hy, hdy, rfl⟩ := hx
      obtain ⟨u, hu, hd, e⟩ := pairs_members.1 hrest
      refine ⟨_, .object k v kvs (w ++ w') _ u (Ws.append hw hw') (.mk k v _ w1 w2 y ⟨q, hq, rfl⟩ hw1 hw2 hy) hu,
        by simp only [depth, depthMembers]; omega, ?_⟩
      rw [wide_ascii (by decide), wide_append, wide_append, wide_append, wide_append, wide_append, wide_quoted,
        wide_ascii (by decide), wide_append, wide_ws hw, wide_ws hw', wide_ws hw1, wide_ws hw2, ← e]
      simp [sep]

/-! ### Separators -/

theorem skipWs_char {w r : Str} {c : Char} (hw : Ws w) (hc : isWs c = false) : skipWs (w ++ c :: r) = c :: r := by
  rw [skipWs_append hw]; exact skipWs_cons hc

theorem isWs_of_ne {c : Char} {r s : Str} (h : skipWs s = c :: r) : isWs c = false := by
  obtain ⟨_, _, _, hh⟩ := skipWs_sound s
  exact hh c (by rw [h]; simp)

theorem colon_sound {s r : Str} (h : got colon s = some ((), r)) : ∃ w, Ws w ∧ s = w ++ ':' :: r := by
  unfold colon at h
  rcases skipWs_cases s with ⟨w, hw, -, hsk⟩ | ⟨w, c, r0, hw, rfl, hsk⟩
  · simp [hsk] at h
  simp only [got_bind, got_ws, Option.bind_some, hsk, List.head?_cons] at h
  split at h
  · subst_vars
    simp only [got_eat, List.tail_cons, Option.some.injEq, Prod.mk.injEq, true_and] at h
    exact ⟨w, hw, by rw [h]⟩
  · simp at h

theorem colon_complete {w : Str} (hw : Ws w) (r : Str) : got colon (w ++ ':' :: r) = some ((), r) := by
  unfold colon
  simp [skipWs_char hw (show isWs ':' = false by decide)]

theorem endMap_cons (r : Str) : got endMap ('}' :: r) = some ((), r) := by
  unfold endMap
  have : skipWs ('}' :: r) = '}' :: r := skipWs_cons (by decide)
  simp [this]

theorem endMap_sound {s r : Str} (h : got endMap s = some ((), r)) : ∃ w, Ws w ∧ s = w ++ '}' :: r := by
  unfold endMap at h
  rcases skipWs_cases s with ⟨w, hw, -, hsk⟩ | ⟨w, c, r0, hw, rfl, hsk⟩
  · simp [hsk] at h
  simp only [got_bind, got_ws, Option.bind_some, hsk, List.head?_cons] at h
  split at h
  · subst_vars
    simp only [got_eat, List.tail_cons, Option.some.injEq, Prod.mk.injEq, true_and] at h
    exact ⟨w, hw, by rw [h]⟩
  · split at h <;> simp at h

theorem endSeq_complete {w : Str} (hw : Ws w) (r : Str) : got endSeq (w ++ ']' :: r) = some ((), r) := by
  unfold endSeq
  simp [skipWs_char hw (show isWs ']' = false by decide)]

theorem endSeq_sound {s r : Str} (h : got endSeq s = some ((), r)) : ∃ w, Ws w ∧ s = w ++ ']' :: r := by
  unfold endSeq at h
  rcases skipWs_cases s with ⟨w, hw, -, hsk⟩ | ⟨w, c, r0, hw, rfl, hsk⟩
  · simp [hsk] at h
  simp only [got_bind, got_ws, Option.bind_some, hsk, List.head?_cons] at h
  split at h
  · subst_vars
    simp only [got_eat, List.tail_cons, Option.some.injEq, Prod.mk.injEq, true_and] at h
    exact ⟨w, hw, by rw [h]⟩
  split at h
  · simp only [got_bind, got_eat, List.tail_cons, Option.bind_some, got_ws] at h
    rcases skipWs_cases r0 with ⟨w, hw, -, hsk⟩ | ⟨w, c, r0, hw, rfl, hsk⟩
    · simp [hsk] at h
    · simp only [hsk, List.head?_cons] at h
      split at h <;> simp at h
  · simp at h

/-- What `nextKey` has read. -/
def KeyRead (b : Bool) (s : Str) : Option Str → Str → Prop
  | none, r => ∃ w r', Ws w ∧ s = w ++ '}' :: r' ∧ r = '}' :: r'
  | some k, r => ∃ w w' u, Ws w ∧ Ws w' ∧ CharsText k u ∧ s = w ++ (sep b ++ (w' ++ '"' :: (wide u ++ '"' :: r)))

theorem key_string {w s r : Str} {b : Bool} {o : Option Str} (hw : Ws w) (hn : Narrow s) (h : got (do
      match ← ws with
      | none => ahead eofValue
      | some q =>
        if q = '"' then do
          eat
          let k ← string
          pure (some k)
        else if q = '}' then ahead trailingComma
        else ahead keyMustBeAString : Reader (Option Str)) s = some (o, r)) : KeyRead b (w ++ (sep b ++ s)) o r := by
  rcases skipWs_cases s with ⟨w1, hw1, -, hsk1⟩ | ⟨w1, q, r2, hw1, rfl, hsk1⟩
  · simp [hsk1] at h
  simp only [got_bind, got_ws, hsk1, List.head?_cons, Option.bind_some] at h
  split at h
  · subst_vars
    simp only [got_bind, got_eat, Option.bind_some, List.tail_cons, Option.bind_eq_some_iff, got_pure,
      Option.some.injEq, Prod.mk.injEq] at h
    obtain ⟨⟨k, r3⟩, h3, rfl, rfl⟩ := h
    obtain ⟨u, hu, rfl⟩ := (got_string hn.of_append.2.of_cons).1 h3
    exact ⟨w, w1, u, hw, hw1, hu, rfl⟩
  · split at h <;> simp at h

theorem nextKey_sound {b : Bool} {s r : Str} {o : Option Str} (hn : Narrow s) (h : got (nextKey b) s = some (o, r)) :
    KeyRead b s o r := by
  unfold nextKey at h
  rcases skipWs_cases s with ⟨w, hw, -, hsk⟩ | ⟨w, c, r0, hw, rfl, hsk⟩
  · simp [hsk] at h
  simp only [got_bind, got_ws, Option.bind_some, hsk, List.head?_cons] at h
  split at h
  · subst_vars
    simp only [got_pure, Option.some.injEq, Prod.mk.injEq] at h
    obtain ⟨rfl, rfl⟩ := h
    exact ⟨w, r0, hw, rfl, rfl⟩
  cases b with
  | true =>
    simp only [true_or, if_true] at h
    exact key_string hw hn.of_append.2 h
  | false =>
    simp only [Bool.false_eq_true, false_or, if_false] at h
    split at h
    · subst_vars
      simp only [got_bind, got_eat, List.tail_cons, Option.bind_some] at h
      exact key_string (b := false) hw hn.of_append.2.of_cons (by rw [got_bind]; exact h)
    · simp at h

theorem nextKey_none (b : Bool) {w : Str} (hw : Ws w) (r : Str) :
    got (nextKey b) (w ++ '}' :: r) = some (none, '}' :: r) := by
  unfold nextKey
  simp [skipWs_char hw (show isWs '}' = false by decide)]

theorem nextKey_some (b : Bool) {w w' k u : Str} (hw : Ws w) (hw' : Ws w') (hu : CharsText k u) (r : Str) :
    got (nextKey b) (w ++ (sep b ++ (w' ++ '"' :: (wide u ++ '"' :: r)))) = some (some k, r) := by
  unfold nextKey
  have hq : ∀ {w' : Str}, Ws w' → skipWs (w' ++ '"' :: (wide u ++ '"' :: r)) = '"' :: (wide u ++ '"' :: r) := fun hw' =>
    skipWs_char hw' (by decide)
  have hq' := hq Ws.nil
  rw [List.nil_append] at hq'
  cases b with
  | true =>
    have : skipWs (w ++ (sep true ++ (w' ++ '"' :: (wide u ++ '"' :: r)))) = '"' :: (wide u ++ '"' :: r) := by
      rw [skipWs_append hw]; exact hq hw'
    simp only [got_bind, got_ws, this, Option.bind_some, List.head?_cons, Char.reduceEq, if_false, true_or, if_true,
      got_pure, hq', got_eat, List.tail_cons, string_complete hu]
  | false =>
    have : skipWs (w ++ (sep false ++ (w' ++ '"' :: (wide u ++ '"' :: r)))) = ',' :: (w' ++ '"' :: (wide u ++ '"' :: r)) :=
      skipWs_char hw (by decide)
    simp only [got_bind, got_ws, this, Option.bind_some, List.head?_cons, Char.reduceEq, if_false, Bool.false_eq_true,
      false_or, if_true, got_pure, hq hw', got_eat, List.tail_cons, string_complete hu]

theorem nextItem_sound {b o : Bool} {s r : Str} (h : got (nextItem b) s = some (o, r)) :
    if o then ∃ w w', Ws w ∧ Ws w' ∧ s = w ++ (sep b ++ (w' ++ r))
    else ∃ w r', Ws w ∧ s = w ++ ']' :: r' ∧ r = ']' :: r' := by
  unfold nextItem at h
  rcases skipWs_cases s with ⟨w, hw, -, hsk⟩ | ⟨w, c, r0, hw, rfl, hsk⟩
  · simp [hsk] at h
  simp only [got_bind, got_ws, Option.bind_some, hsk, List.head?_cons] at h
  split at h
  · subst_vars
    simp only [got_pure, Option.some.injEq, Prod.mk.injEq] at h
    obtain ⟨rfl, rfl⟩ := h
    exact ⟨w, r0, hw, rfl, rfl⟩
  split at h
  · rename_i hb
    subst hb
    simp only [got_pure, Option.some.injEq, Prod.mk.injEq] at h
    obtain ⟨rfl, rfl⟩ := h
    exact ⟨w, [], hw, Ws.nil, rfl⟩
  rename_i hb
  simp only [Bool.not_eq_true] at hb
  subst hb
  split at h
  · subst_vars
    simp only [got_bind, got_eat, List.tail_cons, Option.bind_some, got_ws] at h
    rcases skipWs_cases r0 with ⟨w1, hw1, -, hsk1⟩ | ⟨w1, q, r2, hw1, rfl, hsk1⟩
    · simp [hsk1] at h
    simp only [hsk1, List.head?_cons] at h
    split at h
    · simp at h
    · simp only [got_pure, Option.some.injEq, Prod.mk.injEq] at h
      obtain ⟨rfl, rfl⟩ := h
      exact ⟨w, w1, hw, hw1, rfl⟩
  · simp at h

theorem nextItem_false (b : Bool) {w : Str} (hw : Ws w) (r : Str) :
    got (nextItem b) (w ++ ']' :: r) = some (false, ']' :: r) := by
  unfold nextItem
  simp [skipWs_char hw (show isWs ']' = false by decide)]

theorem nextItem_true (b : Bool) {w w' : Str} {c : Char} (hw : Ws w) (hw' : Ws w') (hc : isWs c = false) (hc' : c ≠ ']')
    (r : Str) : got (nextItem b) (w ++ (sep b ++ (w' ++ c :: r))) = some (true, c :: r) := by
  unfold nextItem
  cases b with
  | true =>
    have : skipWs (w ++ (sep true ++ (w' ++ c :: r))) = c :: r := by
      rw [skipWs_append hw]; exact skipWs_char hw' hc
    simp [this, hc']
  | false =>
    have : skipWs (w ++ (sep false ++ (w' ++ c :: r))) = ',' :: (w' ++ c :: r) := skipWs_char hw (by decide)
    simp only [got_bind, got_ws, this, Option.bind_some, List.head?_cons, Char.reduceEq, if_false, Bool.false_eq_true,
      if_true, got_eat, List.tail_cons, skipWs_char hw' hc, hc', got_pure]

theorem val_cons {d : Nat} {j : Json} {t : Str} (h : Val d j t) :
    ∃ c t', t = c :: t' ∧ isWs c = false ∧ c ≠ ']' ∧ c ≠ '}' := by
  obtain ⟨u, hu, -, rfl⟩ := h
  exact skippedValue_cons (skipped_value hu)

/-! ### Values -/

theorem readNumber_not_str {neg : Bool} {s r v : Str} (h : readNumber neg s = some (.str v, r)) : False := by
  unfold readNumber at h
  split at h
  · simp at h
  · simp at h
  · cases h

theorem scalar_ascii {j : Json} {t : Str} (h : ValueText j t) (hd : depth j = 0) (hs : ∀ v, j ≠ .str v) :
    ∀ c ∈ t, c.toNat < 128 := by
  cases h with
  | null => decide
  | true => decide
  | false => decide
  | integer _ _ h => exact number_ascii h
  | float _ _ h _ => exact number_ascii h
  | string v s h => exact absurd rfl (hs v)
  | emptyArray => simp [depth] at hd
  | array => simp [depth] at hd
  | emptyObject => simp [depth] at hd
  | object => simp [depth] at hd

theorem value_sound (f : Nat) : ∀ d,
    (∀ s j r, Narrow s → got (value f d) s = some (j, r) → ∃ w t, Ws w ∧ Val d j t ∧ s = w ++ t ++ r) ∧
    (∀ s xs r b, Narrow s → got (items f d b) s = some (xs, r) →
      ∃ t r', ItemsOf (Val d) b xs t ∧ s = t ++ ']' :: r' ∧ r = ']' :: r') ∧
    (∀ s kvs r b, Narrow s → got (pairs f d b) s = some (kvs, r) →
      ∃ t r', PairsOf (fun _ => Val d) b kvs t ∧ s = t ++ '}' :: r' ∧ r = '}' :: r') := by
  induction f with
  | zero => intro d; refine ⟨?_, ?_, ?_⟩ <;> intro s r <;> simp [value, items, pairs]
  | succ f ih =>
    intro d
    refine ⟨?_, ?_, ?_⟩
    · intro s j r hn h
      rw [value.eq_def] at h
      simp only at h
      rcases skipWs_cases s with ⟨w, hw, -, hsk⟩ | ⟨w, c, r0, hw, rfl, hsk⟩
      · simp [hsk] at h
      simp only [got_bind, got_ws, Option.bind_some, hsk, List.head?_cons] at h
      have hn0 : Narrow r0 := hn.of_append.2.of_cons
      split at h
      · subst_vars
        simp only [got_bind, got_eat, Option.bind_some, List.tail_cons, Option.bind_eq_some_iff, got_pure,
          Option.some.injEq, Prod.mk.injEq] at h
        obtain ⟨⟨v, r1⟩, h1, rfl, rfl⟩ := h
        obtain ⟨u, hu, rfl⟩ := (got_string hn0).1 h1
        exact ⟨w, _, hw, val_str.2 ⟨u, hu, rfl⟩, by simp⟩
      split at h
      · subst_vars
        cases d with
        | zero => simp at h
        | succ d =>
          simp only [got_bind, got_eat, Option.bind_some, List.tail_cons, Option.bind_eq_some_iff, got_pure,
            Option.some.injEq, Prod.mk.injEq, got_after, Option.map_eq_some_iff] at h
          obtain ⟨⟨xs, r1⟩, ⟨⟨xs', r2⟩, h2, ⟨_, r3⟩, h3, e1, e2⟩, rfl, rfl⟩ := h
          obtain ⟨t, r', ht, rfl, e⟩ := (ih d).2.1 _ _ _ _ hn0 h2
          subst e
          have := endSeq_complete Ws.nil r'
          rw [List.nil_append, h3] at this
          simp only [Option.some.injEq, Prod.mk.injEq, true_and] at this
          subst this
          exact ⟨w, _, hw, val_arr.2 ⟨d, t, rfl, ht, rfl⟩, by simp⟩
      split at h
      · subst_vars
        cases d with
        | zero => simp at h
        | succ d =>
          simp only [got_bind, got_eat, Option.bind_some, List.tail_cons, Option.bind_eq_some_iff, got_pure,
            Option.some.injEq, Prod.mk.injEq, got_after, Option.map_eq_some_iff] at h
          obtain ⟨⟨xs, r1⟩, ⟨⟨xs', r2⟩, h2, ⟨_, r3⟩, h3, e1, e2⟩, rfl, rfl⟩ := h
          obtain ⟨t, r', ht, rfl, e⟩ := (ih d).2.2 _ _ _ _ hn0 h2
          subst e
          have := endMap_cons r'
          rw [h3] at this
          simp only [Option.some.injEq, Prod.mk.injEq, true_and] at this
          subst this
          exact ⟨w, _, hw, val_obj.2 ⟨d, t, rfl, ht, rfl⟩, by simp⟩
      have hnum : ∀ {j : Json} {t : Str}, ValueText j t → depth j = 0 → (∀ x ∈ t, x.toNat < 128) → Val d j t :=
        fun h1 h2 h3 => ⟨_, h1, by omega, (wide_eq_self h3).symm⟩
      split at h
      · subst_vars
        simp only [got_bind, got_eat, Option.bind_some, List.tail_cons, got_number] at h
        obtain ⟨t, ht, hd, rfl⟩ := readNumber_sound h
        have ht : ValueText j ('-' :: t) := by simpa using ht
        exact ⟨w, '-' :: t, hw, hnum ht hd (scalar_ascii ht hd (by rintro v rfl; exact readNumber_not_str h)), by simp⟩
      split at h
      · rw [got_number] at h
        obtain ⟨t, ht, hd, hst⟩ := readNumber_sound h
        have ht : ValueText j t := by simpa using ht
        exact ⟨w, t, hw, hnum ht hd (scalar_ascii ht hd (by rintro v rfl; exact readNumber_not_str h)), by rw [hst]; simp⟩
      split at h
      · subst_vars
        simp only [got_bind, got_eat, Option.bind_some, List.tail_cons, Option.bind_eq_some_iff, got_pure,
          Option.some.injEq, Prod.mk.injEq] at h
        obtain ⟨⟨_, r1⟩, h1, rfl, rfl⟩ := h
        obtain rfl := ident_sound h1
        exact ⟨w, _, hw, hnum .null rfl (by decide), by simp⟩
      split at h
      · subst_vars
        simp only [got_bind, got_eat, Option.bind_some, List.tail_cons, Option.bind_eq_some_iff, got_pure,
          Option.some.injEq, Prod.mk.injEq] at h
        obtain ⟨⟨_, r1⟩, h1, rfl, rfl⟩ := h
        obtain rfl := ident_sound h1
        exact ⟨w, _, hw, hnum .true rfl (by decide), by simp⟩
      split at h
      · subst_vars
        simp only [got_bind, got_eat, Option.bind_some, List.tail_cons, Option.bind_eq_some_iff, got_pure,
          Option.some.injEq, Prod.mk.injEq] at h
        obtain ⟨⟨_, r1⟩, h1, rfl, rfl⟩ := h
        obtain rfl := ident_sound h1
        exact ⟨w, _, hw, hnum .false rfl (by decide), by simp⟩
      · simp at h
    · intro s xs r b hn h
      rw [items] at h
      simp only [got_bind, Option.bind_eq_some_iff] at h
      obtain ⟨⟨o, r1⟩, h1, h⟩ := h
      have hs := nextItem_sound h1
      cases o with
      | false =>
        simp only [Bool.false_eq_true, if_false, got_pure, Option.some.injEq, Prod.mk.injEq] at h hs
        obtain ⟨rfl, rfl⟩ := h
        obtain ⟨w, r', hw, rfl, rfl⟩ := hs
        exact ⟨w, r', .close _ _ hw, rfl, rfl⟩
      | true =>
        simp only [if_true, got_bind, Option.bind_eq_some_iff, got_pure, Option.some.injEq, Prod.mk.injEq] at h hs
        obtain ⟨w, w', hw, hw', rfl⟩ := hs
        obtain ⟨⟨v, r2⟩, h2, ⟨vs, r3⟩, h3, rfl, rfl⟩ := h
        have hn1 := hn.of_append.2.of_append.2.of_append.2
        obtain ⟨w2, t2, hw2, ht2, rfl⟩ := (ih d).1 _ _ _ hn1 h2
        obtain ⟨t3, r', ht3, e, rfl⟩ := (ih d).2.1 _ _ _ _ hn1.of_append.2 h3
        subst e
        exact ⟨w ++ (sep b ++ (w' ++ w2 ++ (t2 ++ t3))), r', .more _ _ _ _ _ _ _ hw (Ws.append hw' hw2) ht2 ht3,
          by simp, rfl⟩
    · intro s kvs r b hn h
      rw [pairs] at h
      simp only [got_bind, Option.bind_eq_some_iff] at h
      obtain ⟨⟨o, r1⟩, h1, h⟩ := h
      have hs := nextKey_sound hn h1
      cases o with
      | none =>
        simp only [got_pure, Option.some.injEq, Prod.mk.injEq] at h
        obtain ⟨rfl, rfl⟩ := h
        obtain ⟨w, r', hw, rfl, rfl⟩ := hs
        exact ⟨w, r', .close _ _ hw, rfl, rfl⟩
      | some k =>
        simp only [got_bind, Option.bind_eq_some_iff, got_pure, Option.some.injEq, Prod.mk.injEq] at h
        obtain ⟨w, w', u, hw, hw', hu, rfl⟩ := hs
        obtain ⟨⟨_, r2⟩, h2, ⟨v, r3⟩, h3, ⟨kvs', r4⟩, h4, rfl, rfl⟩ := h
        obtain ⟨w1, hw1, rfl⟩ := colon_sound h2
        have hn1 := hn.of_append.2.of_append.2.of_append.2.of_cons.of_append.2.of_cons.of_append.2.of_cons
        obtain ⟨w2, t2, hw2, ht2, e2⟩ := (ih d).1 _ _ _ hn1 h3
        subst e2
        obtain ⟨t3, r', ht3, e, rfl⟩ := (ih d).2.2 _ _ _ _ hn1.of_append.2 h4
        subst e
        exact ⟨_, r', .more _ _ _ _ _ _ _ _ _ _ _ hw hw' hu hw1 hw2 ht2 ht3, by simp, rfl⟩

theorem value_number (f d : Nat) {w t r : Str} {l : Lexical} {j : Json} (hw : Ws w) (h : NumberText l t) (hr : Ends r)
    (hp' : ∀ neg s, parseNumber neg s = some (l, r) → readNumber neg s = some (j, r)) :
    got (value (f + 1) d) (w ++ wide t ++ r) = some (j, r) := by
  rw [List.append_assoc, wide_eq_self (number_ascii h), value.eq_def]
  simp only [got_bind, got_ws, Option.bind_some, skipWs_append hw]
  rcases number_complete h hr with ⟨t', rfl, hp⟩ | ⟨c, t', rfl, hdig, hp⟩ <;> replace hp := hp' _ _ hp
  · rw [List.cons_append, skipWs_cons (by decide)]
    simp [got_number, hp]
  · obtain ⟨h1, h2, h3, h4, -, -, h5, -⟩ := isDigit_facts hdig
    rw [List.cons_append] at hp ⊢
    rw [skipWs_cons h1]
    simp [h2, h3, h4, h5, hdig, got_number, hp]

theorem value_complete (f : Nat) : ∀ d,
    (∀ w t j r, Ws w → Val d j t → 2 * t.length ≤ f → Ends r → got (value f d) (w ++ t ++ r) = some (j, r)) ∧
    (∀ t xs r b, ItemsOf (Val d) b xs t → 2 * t.length + 1 ≤ f →
      got (items f d b) (t ++ ']' :: r) = some (xs, ']' :: r)) ∧
    (∀ t kvs r b, PairsOf (fun _ => Val d) b kvs t → 2 * t.length + 1 ≤ f →
      got (pairs f d b) (t ++ '}' :: r) = some (kvs, '}' :: r)) := by
  induction f with
  | zero =>
    intro d
    refine ⟨?_, ?_, ?_⟩
    · intro w t j r _ h hl
      obtain ⟨c, t', rfl, -⟩ := val_cons h
      simp at hl
    · intro t xs r b h hl; omega
    · intro t kvs r b h hl; omega
  | succ f ih =>
    intro d
    refine ⟨?_, ?_, ?_⟩
    · intro w t j r hw h hl hr
      have hnum : ∀ {l : Lexical} {t : Str} {j : Json}, NumberText l t →
          (∀ neg s, parseNumber neg s = some (l, r) → readNumber neg s = some (j, r)) →
          got (value (f + 1) d) (w ++ wide t ++ r) = some (j, r) := fun h hp => value_number f d hw h hr hp
      by_cases hj : (∃ n, j = .num n) ∨ ∃ x, j = .float x
      · obtain ⟨u, hu, -, rfl⟩ := h
        cases hu with
        | integer _ _ h => exact hnum h fun neg s hp => readNumber_num hp
        | float _ _ h hread => exact hnum h fun neg s hp => readNumber_float h hread hp
        | _ => simp at hj
      rw [List.append_assoc, value.eq_def]
      simp only [got_bind, got_ws, Option.bind_some, skipWs_append hw]
      cases j with
      | null =>
        obtain ⟨u, hu, -, rfl⟩ := h
        cases hu
        rw [show wide (str! "null") = str! "null" from rfl, show skipWs (str! "null" ++ r) = str! "null" ++ r from
          skipWs_cons (by decide)]
        have := ident_complete (str! "ull") r
        simp [isDigit] at this ⊢
        simp [this]
      | bool y =>
        cases y with
        | true =>
          obtain ⟨u, hu, -, rfl⟩ := h
          cases hu
          rw [show wide (str! "true") = str! "true" from rfl, show skipWs (str! "true" ++ r) = str! "true" ++ r from
            skipWs_cons (by decide)]
          have := ident_complete (str! "rue") r
          simp [isDigit] at this ⊢
          simp [this]
        | false =>
          obtain ⟨u, hu, -, rfl⟩ := h
          cases hu
          rw [show wide (str! "false") = str! "false" from rfl, show skipWs (str! "false" ++ r) = str! "false" ++ r from
            skipWs_cons (by decide)]
          have := ident_complete (str! "alse") r
          simp [isDigit] at this ⊢
          simp [this]
      | num n => exact absurd (.inl ⟨n, rfl⟩) hj
      | float x => exact absurd (.inr ⟨x, rfl⟩) hj
      | str v =>
        obtain ⟨u, hu, rfl⟩ := val_str.1 h
        rw [List.cons_append, List.append_assoc, skipWs_cons (by decide)]
        simp [string_complete hu]
      | arr xs =>
        obtain ⟨d', t', rfl, hi, rfl⟩ := val_arr.1 h
        simp only [List.length_cons, List.length_append, List.length_nil] at hl
        have h1 := (ih d').2.1 t' xs r true hi (by omega)
        have h2 := endSeq_complete Ws.nil r
        rw [List.nil_append] at h2
        rw [List.cons_append, List.append_assoc, skipWs_cons (by decide)]
        simp [h1, h2]
      | obj kvs =>
        obtain ⟨d', t', rfl, hi, rfl⟩ := val_obj.1 h
        simp only [List.length_cons, List.length_append, List.length_nil] at hl
        have h1 := (ih d').2.2 t' kvs r true hi (by omega)
        have h2 := endMap_cons r
        rw [List.cons_append, List.append_assoc, skipWs_cons (by decide)]
        simp [h1, h2]
    · intro t xs r b h hl
      rw [items]
      cases h with
      | close _ w hw => simp [nextItem_false b hw]
      | more _ x xs w w' t rest hw hw' hx hrest =>
        simp only [List.length_append] at hl
        have h1 := (ih d).1 [] t x (rest ++ ']' :: r) Ws.nil hx (by omega) (itemsOf_ends hrest r)
        obtain ⟨c, t', rfl, c1, c2, -⟩ := val_cons hx
        simp only [List.length_cons] at hl
        have h2 := (ih d).2.1 rest xs r false hrest (by omega)
        have h3 := nextItem_true b hw hw' c1 c2 (t' ++ (rest ++ ']' :: r))
        simp only [List.nil_append, List.cons_append, List.append_assoc] at h1 h3 ⊢
        simp only [got_bind, h3, Option.bind_some, if_true, h1, h2, got_pure]
    · intro t kvs r b h hl
      rw [pairs]
      cases h with
      | close _ w hw => simp [nextKey_none b hw]
      | more _ k v kvs w w' u w1 w2 t rest hw hw' hu hw1 hw2 hx hrest =>
        simp only [List.length_append, List.length_cons] at hl
        have h1 := (ih d).1 w2 t v (rest ++ '}' :: r) hw2 hx (by omega) (pairsOf_ends hrest r)
        have h2 := (ih d).2.2 rest kvs r false hrest (by omega)
        have h3 := nextKey_some b hw hw' hu (w1 ++ ':' :: (w2 ++ (t ++ (rest ++ '}' :: r))))
        have h4 := colon_complete hw1 (w2 ++ (t ++ (rest ++ '}' :: r)))
        simp only [List.append_assoc, List.cons_append] at h1 h3 h4 ⊢
        simp only [got_bind, h3, Option.bind_some, h4, h1, h2, got_pure]

/-! ### Readers and what they read -/

/-- The reader reads exactly the texts `R`, after white space. -/
structure Reads (f : Reader α) (R : α → Str → Prop) : Prop where
  sound : ∀ {s a r}, Narrow s → got f s = some (a, r) → ∃ w t, Ws w ∧ R a t ∧ s = w ++ t ++ r
  complete : ∀ {w t a r}, Ws w → R a t → Ends r → got f (w ++ t ++ r) = some (a, r)

theorem reads_value (d : Nat) : Reads (fueled fun n => value n d) (Val d) where
  sound hn h := (value_sound _ d).1 _ _ _ hn h
  complete hw h hr := (value_complete _ d).1 _ _ _ _ hw h (by simp only [List.length_append]; omega) hr

theorem reads_skip : Reads (fueled skip) fun _ => SkippedValue where
  sound _ h := (Reading.skip_sound _).1 _ _ h
  complete hw h hr := (Reading.skip_complete _).1 _ _ _ hw h (by simp only [List.length_append]; omega) hr

end Reading
end Oid4vci
