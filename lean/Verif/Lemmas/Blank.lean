import Verif.Lemmas.Seen

/-! What a JSON text looks like to a reader that skips what nobody asks for. -/

namespace Oid4vci
namespace Json

open Spec

mutual
/-- The document with `null` for everything nobody asks for. -/
def blank : Shape → Json → Json
  | σ, arr xs => arr (blankList σ 0 xs)
  | σ, obj kvs => obj (blankMembers σ kvs)
  | _, j => j
/-- The elements from position `i` on. -/
def blankList : Shape → Nat → List Json → List Json
  | _, _, [] => []
  | σ, i, x :: xs => blank (σ.item i) x :: blankList σ (i + 1) xs
/-- The members. -/
def blankMembers : Shape → List (Str × Json) → List (Str × Json)
  | _, [] => []
  | σ, (k, v) :: kvs =>
    (k, match σ.member k with
      | some τ => blank τ v
      | none => null) :: blankMembers σ kvs
end

/-- The value of a member. -/
def blankMember (σ : Shape) (k : Str) (v : Json) : Json :=
  match σ.member k with
  | some τ => blank τ v
  | none => null

theorem blankMembers_cons (σ : Shape) (k : Str) (v : Json) (kvs : List (Str × Json)) :
    blankMembers σ ((k, v) :: kvs) = (k, blankMember σ k v) :: blankMembers σ kvs := by
  rw [blankMembers]; rfl

theorem blank_leaf {σ : Shape} {j : Json} (h : Leaf j) : blank σ j = j := by
  cases j <;> first | exact h.elim | rfl

mutual
theorem blank_any : ∀ j : Json, blank .any j = j
  | null | bool _ | num _ | float _ | str _ => rfl
  | arr xs => by rw [blank, blankList_any]
  | obj kvs => by rw [blank, blankMembers_any]
theorem blankList_any : ∀ (xs : List Json) {i : Nat}, blankList .any i xs = xs
  | [], _ => rfl
  | x :: xs, i => by
    rw [blankList, blankList_any xs]
    exact congrArg (· :: xs) (blank_any x)
theorem blankMembers_any : ∀ kvs : List (Str × Json), blankMembers .any kvs = kvs
  | [] => rfl
  | (k, v) :: kvs => by
    rw [blankMembers, blankMembers_any kvs]
    exact congrArg (fun x => (k, x) :: kvs) (blank_any v)
end

mutual
theorem depth_blank : ∀ (σ : Shape) (j : Json), depth (blank σ j) ≤ depth j
  | _, null | _, bool _ | _, num _ | _, float _ | _, str _ => Nat.le_refl _
  | σ, arr xs => by rw [blank, depth, depth]; exact Nat.succ_le_succ (depth_blankList σ 0 xs)
  | σ, obj kvs => by rw [blank, depth, depth]; exact Nat.succ_le_succ (depth_blankMembers σ kvs)
theorem depth_blankList : ∀ (σ : Shape) (i : Nat) (xs : List Json),
    depthList (blankList σ i xs) ≤ depthList xs
  | _, _, [] => Nat.le_refl _
  | σ, i, x :: xs => by
    have h1 := depth_blank (σ.item i) x
    have h2 := depth_blankList σ (i + 1) xs
    rw [blankList, depthList, depthList]
    omega
theorem depth_blankMembers : ∀ (σ : Shape) (kvs : List (Str × Json)),
    depthMembers (blankMembers σ kvs) ≤ depthMembers kvs
  | _, [] => Nat.le_refl _
  | σ, (k, v) :: kvs => by
    have h2 := depth_blankMembers σ kvs
    have h1 : depth (blankMember σ k v) ≤ depth v := by
      unfold blankMember
      cases σ.member k with
      | none => exact Nat.zero_le _
      | some τ => exact depth_blank τ v
    rw [blankMembers_cons, depthMembers, depthMembers]
    omega
end

/-! ### A text that can be read can be skipped -/

theorem skippable_chars {v t : Str} (h : CharsText v t) : SkippedChars t := by
  induction h with
  | nil => exact .nil
  | unescaped c v t h1 h2 h3 _ ih => exact .plain _ _ h1 h2 h3 ih
  | escape e c v t he _ ih => exact .escape _ _ _ he ih
  | unicode c h v t hx _ ih => exact .unicode _ _ _ hx ih
  | pair c hi lo h l v t hh hl h1 h2 h3 h4 hc _ ih => exact .unicode _ _ _ hh (.unicode _ _ _ hl ih)

theorem skippable_string {v t : Str} (h : StringText v t) : SkippedString t := by
  obtain ⟨u, hu, rfl⟩ := h
  exact ⟨u, skippable_chars hu, rfl⟩

mutual
theorem skippable_value : ∀ {j : Json} {t : Str}, ValueText j t → SkippedValue t
  | _, _, .null => .null
  | _, _, .true => .true
  | _, _, .false => .false
  | _, _, .integer _ _ h => .number _ _ h
  | _, _, .float _ _ h _ => .number _ _ h
  | _, _, .string _ _ h => .string _ (skippable_string h)
  | _, _, .emptyArray w hw => .emptyArray w hw
  | _, _, .array _ _ _ _ _ hw hs ht => .array _ _ _ hw (skippable_value hs) (skippable_elements ht)
  | _, _, .emptyObject w hw => .emptyObject w hw
  | _, _, .object _ _ _ _ _ _ hw hs ht => .object _ _ _ hw (skippable_member hs) (skippable_members ht)
theorem skippable_elements : ∀ {xs : List Json} {t : Str}, ElementsText xs t → SkippedElements t
  | _, _, .close w hw => .close w hw
  | _, _, .more _ _ _ _ _ _ hw hw' hs ht => .more _ _ _ _ hw hw' (skippable_value hs) (skippable_elements ht)
theorem skippable_member : ∀ {k : Str} {v : Json} {t : Str}, MemberText k v t → SkippedMember t
  | _, _, _, .mk _ _ _ _ _ _ hs hw hw' ht => .mk _ _ _ _ (skippable_string hs) hw hw' (skippable_value ht)
theorem skippable_members : ∀ {kvs : List (Str × Json)} {t : Str}, MembersText kvs t → SkippedMembers t
  | _, _, .close w hw => .close w hw
  | _, _, .more _ _ _ _ _ _ _ hw hw' hs ht =>
    .more _ _ _ _ hw hw' (skippable_member hs) (skippable_members ht)
end

/-! ### A JSON text is seen as the document with blanks -/

mutual
theorem seen_value : ∀ (σ : Shape) {j : Json} {t : Str}, ValueText j t → SeenValue σ (blank σ j) t
  | σ, _, _, .null => .leaf _ _ _ trivial .null
  | σ, _, _, .true => .leaf _ _ _ trivial .true
  | σ, _, _, .false => .leaf _ _ _ trivial .false
  | σ, _, _, .integer _ _ h => .leaf _ _ _ trivial (.integer _ _ h)
  | σ, _, _, .float _ _ h h' => .leaf _ _ _ trivial (.float _ _ h h')
  | σ, _, _, .string _ _ h => .leaf _ _ _ trivial (.string _ _ h)
  | σ, _, _, .emptyArray w hw => .emptyArray σ w hw
  | σ, _, _, .array _ _ _ _ _ hw hs ht => by
    rw [blank, blankList]
    exact .array _ _ _ _ _ _ _ (item_iff.2 rfl) hw (seen_value (σ.item 0) hs) (seen_elements σ 1 ht)
  | σ, _, _, .emptyObject w hw => .emptyObject σ w hw
  | σ, _, _, .object _ _ _ _ _ _ hw hs ht => by
    rw [blank, blankMembers_cons]
    exact .object _ _ _ _ _ _ _ hw (seen_member σ hs) (seen_members σ ht)
theorem seen_elements : ∀ (σ : Shape) (i : Nat) {xs : List Json} {t : Str}, ElementsText xs t →
    SeenElements σ i (blankList σ i xs) t
  | σ, i, _, _, .close w hw => .close σ i w hw
  | σ, i, _, _, .more _ _ _ _ _ _ hw hw' hs ht => by
    rw [blankList]
    exact .more _ _ _ _ _ _ _ _ _ (item_iff.2 rfl) hw hw' (seen_value (σ.item i) hs) (seen_elements σ (i + 1) ht)
theorem seen_member : ∀ (σ : Shape) {k : Str} {v : Json} {t : Str}, MemberText k v t →
    SeenMember σ k (blankMember σ k v) t
  | σ, _, _, _, .mk k v _ _ _ _ hs hw hw' ht => by
    unfold blankMember
    cases hm : σ.member k with
    | none => exact .skipped _ _ _ _ _ _ (ignores_iff.2 hm) hs hw hw' (skippable_value ht)
    | some τ => exact .read _ τ _ _ _ _ _ _ (asks_iff.2 hm) hs hw hw' (seen_value τ ht)
theorem seen_members : ∀ (σ : Shape) {kvs : List (Str × Json)} {t : Str}, MembersText kvs t →
    SeenMembers σ (blankMembers σ kvs) t
  | σ, _, _, .close w hw => .close σ w hw
  | σ, _, _, .more _ _ _ _ _ _ _ hw hw' hs ht => by
    rw [blankMembers_cons]
    exact .more _ _ _ _ _ _ _ _ hw hw' (seen_member σ hs) (seen_members σ ht)
end

theorem seen_text (σ : Shape) {j : Json} {s : Str} (h : JsonText j s) : SeenText σ (blank σ j) s := by
  obtain ⟨w, t, w', hw, ht, hw', rfl⟩ := h
  exact ⟨w, t, w', hw, seen_value σ ht, hw', rfl⟩

/-- A text is seen in one way only, however deep it is. -/
theorem seenText_unique {σ : Shape} {j j' : Json} {s : Str} (h : SeenText σ j s) (h' : SeenText σ j' s) :
    j = j' := by
  obtain ⟨w, t, w', hw, ht, hw', rfl⟩ := h
  obtain ⟨u, v, u', hu, hv, hu', e⟩ := h'
  have h1 := (see_complete_aux (4 * (w ++ t ++ w').length + 4) (max (depth j) (depth j')) σ).1 w t j w' hw ht
    (Nat.le_max_left _ _) (by simp only [List.length_append]; omega) (ws_ends_nil hw')
  have h2 := (see_complete_aux (4 * (w ++ t ++ w').length + 4) (max (depth j) (depth j')) σ).1 u v j' u' hu hv
    (Nat.le_max_right _ _) (by rw [e]; simp only [List.length_append]; omega) (ws_ends_nil hu')
  rw [← e, h1] at h2
  simp only [Option.some.injEq, Prod.mk.injEq] at h2
  exact h2.1

/-- What is seen of a JSON text. -/
theorem see_text (σ : Shape) {j : Json} {s : Str} (h : JsonText j s) :
    see σ s = if depth (blank σ j) ≤ maxDepth then some (blank σ j) else none := by
  split
  · rename_i hd
    exact see_complete (seen_text σ h) hd
  · rename_i hd
    cases hs : see σ s with
    | none => rfl
    | some j' =>
      obtain ⟨h1, h2⟩ := see_sound hs
      rw [seenText_unique (seen_text σ h) h1] at hd
      exact absurd h2 hd

/-- What can be read completely is seen. -/
theorem see_parse (σ : Shape) {j : Json} {s : Str} (h : parse s = some j) : see σ s = some (blank σ j) := by
  obtain ⟨h1, h2⟩ := parse_sound h
  rw [see_text σ h1, if_pos ((depth_blank σ j).trans h2)]

/-- If nothing is skipped, everything is read. -/
theorem see_eq_parse (σ : Shape) {j : Json} {s : Str} (h : JsonText j s) (hb : blank σ j = j) :
    see σ s = parse s := by
  rw [see_text σ h, hb]
  split
  · rename_i hd; exact (parse_complete h hd).symm
  · rename_i hd
    cases hs : parse s with
    | none => rfl
    | some j' =>
      obtain ⟨h1, h2⟩ := parse_sound hs
      have := seenText_unique (seen_text .any h) (seen_text .any h1)
      rw [blank_any, blank_any] at this
      exact absurd (this ▸ h2) hd

mutual
theorem text_value : ∀ {σ : Shape} {j : Json} {t : Str}, σ = .any → SeenValue σ j t → ValueText j t
  | _, _, _, _, .leaf _ _ _ _ h => h
  | _, _, _, _, .emptyArray _ w hw => .emptyArray w hw
  | _, _, _, e, .array _ _ _ _ _ _ _ hi hw hs ht =>
    .array _ _ _ _ _ hw (text_value (by rw [e] at hi; cases hi; rfl) hs) (text_elements e ht)
  | _, _, _, _, .emptyObject _ w hw => .emptyObject w hw
  | _, _, _, e, .object _ _ _ _ _ _ _ hw hs ht => .object _ _ _ _ _ _ hw (text_member e hs) (text_members e ht)
theorem text_elements : ∀ {σ : Shape} {i : Nat} {xs : List Json} {t : Str}, σ = .any → SeenElements σ i xs t →
    ElementsText xs t
  | _, _, _, _, _, .close _ _ w hw => .close w hw
  | _, _, _, _, e, .more _ _ _ _ _ _ _ _ _ hi hw hw' hs ht =>
    .more _ _ _ _ _ _ hw hw' (text_value (by rw [e] at hi; cases hi; rfl) hs) (text_elements e ht)
theorem text_member : ∀ {σ : Shape} {k : Str} {v : Json} {t : Str}, σ = .any → SeenMember σ k v t →
    MemberText k v t
  | _, _, _, _, e, .read _ τ _ _ _ _ _ _ hm hs hw hw' ht =>
    .mk _ _ _ _ _ _ hs hw hw' (text_value (by rw [e] at hm; cases hm; rfl) ht)
  | _, _, _, _, e, .skipped _ _ _ _ _ _ hm _ _ _ _ => by rw [e] at hm; cases hm
theorem text_members : ∀ {σ : Shape} {kvs : List (Str × Json)} {t : Str}, σ = .any → SeenMembers σ kvs t →
    MembersText kvs t
  | _, _, _, _, .close _ w hw => .close w hw
  | _, _, _, e, .more _ _ _ _ _ _ _ _ hw hw' hs ht =>
    .more _ _ _ _ _ _ _ hw hw' (text_member e hs) (text_members e ht)
end

/-- A reader that asks for everything is the parser. -/
theorem see_any (s : Str) : see .any s = parse s := by
  cases h : parse s with
  | some j => rw [see_parse .any h, blank_any]
  | none =>
    cases hs : see .any s with
    | none => rfl
    | some j =>
      obtain ⟨⟨w, t, w', hw, ht, hw', rfl⟩, h2⟩ := see_sound hs
      rw [parse_complete ⟨w, t, w', hw, text_value rfl ht, hw', rfl⟩ h2] at h
      cases h

end Json
end Oid4vci
