import Verif.Base.Shape
import Verif.Spec.Loose

/-! What a reader sees in a text that looks only at what a type asks for. -/

namespace Oid4vci.Spec

/-- Neither an array nor an object. -/
def Leaf : Json → Prop
  | .arr _ | .obj _ => False
  | _ => True

/-- How the element at position `i` is looked at: those of an array which is asked for as such all in one way;
those of an array in place of a struct like the fields, in order. -/
inductive Item : Shape → Nat → Shape → Prop
  | vec (τ : Shape) (i : Nat) : Item (.vec τ) i τ
  | field (before after : List (Str × Shape)) (k : Str) (τ : Shape) :
      Item (.struct (before ++ (k, τ) :: after)) before.length τ
  | beyond (fs : List (Str × Shape)) (i : Nat) : fs.length ≤ i → Item (.struct fs) i .any
  | any (i : Nat) : Item .any i .any
  | flat (fs : List (Str × Shape)) (i : Nat) : Item (.flat fs) i .any

/-- The first entry of the name in a table. -/
def Entry (fs : List (Str × Shape)) (k : Str) (τ : Shape) : Prop :=
  ∃ before after, fs = before ++ (k, τ) :: after ∧ ∀ p ∈ before, p.1 ≠ k

/-- The member is looked at, in this way. -/
inductive Asks : Shape → Str → Shape → Prop
  | struct (fs : List (Str × Shape)) (k : Str) (τ : Shape) : Entry fs k τ → Asks (.struct fs) k τ
  | flat (fs : List (Str × Shape)) (k : Str) (τ : Shape) : Entry fs k τ → Asks (.flat fs) k τ
  | rest (fs : List (Str × Shape)) (k : Str) : (∀ p ∈ fs, p.1 ≠ k) → Asks (.flat fs) k .any
  | any (k : Str) : Asks .any k .any
  | vec (τ : Shape) (k : Str) : Asks (.vec τ) k .any

/-- The member is passed over. -/
inductive Ignores : Shape → Str → Prop
  | struct (fs : List (Str × Shape)) (k : Str) : (∀ p ∈ fs, p.1 ≠ k) → Ignores (.struct fs) k

mutual
/-- A value as seen by a reader: the grammar of RFC 8259 (`ValueText`), except that the value of a member
nobody asks for only has to be delimited (`SkippedValue`) and counts as `null`. -/
inductive SeenValue : Shape → Json → Str → Prop
  | leaf (σ : Shape) (j : Json) (s : Str) : Leaf j → ValueText j s → SeenValue σ j s
  | emptyArray (σ : Shape) (w : Str) : Ws w → SeenValue σ (.arr []) ('[' :: (w ++ [']']))
  | array (σ τ : Shape) (x : Json) (xs : List Json) (w s t : Str) : Item σ 0 τ → Ws w → SeenValue τ x s →
      SeenElements σ 1 xs t → SeenValue σ (.arr (x :: xs)) ('[' :: (w ++ s ++ t))
  | emptyObject (σ : Shape) (w : Str) : Ws w → SeenValue σ (.obj []) ('{' :: (w ++ ['}']))
  | object (σ : Shape) (k : Str) (v : Json) (kvs : List (Str × Json)) (w s t : Str) : Ws w →
      SeenMember σ k v s → SeenMembers σ kvs t → SeenValue σ (.obj ((k, v) :: kvs)) ('{' :: (w ++ s ++ t))
/-- The elements from position `i` on, and the closing bracket. -/
inductive SeenElements : Shape → Nat → List Json → Str → Prop
  | close (σ : Shape) (i : Nat) (w : Str) : Ws w → SeenElements σ i [] (w ++ [']'])
  | more (σ τ : Shape) (i : Nat) (x : Json) (xs : List Json) (w w' s t : Str) : Item σ i τ → Ws w → Ws w' →
      SeenValue τ x s → SeenElements σ (i + 1) xs t →
      SeenElements σ i (x :: xs) (w ++ ',' :: (w' ++ s ++ t))
/-- A member. -/
inductive SeenMember : Shape → Str → Json → Str → Prop
  | read (σ τ : Shape) (k : Str) (v : Json) (s w w' t : Str) : Asks σ k τ → StringText k s → Ws w →
      Ws w' → SeenValue τ v t → SeenMember σ k v (s ++ w ++ ':' :: (w' ++ t))
  | skipped (σ : Shape) (k s w w' t : Str) : Ignores σ k → StringText k s → Ws w → Ws w' →
      SkippedValue t → SeenMember σ k .null (s ++ w ++ ':' :: (w' ++ t))
/-- The members after the first one, and the closing brace. -/
inductive SeenMembers : Shape → List (Str × Json) → Str → Prop
  | close (σ : Shape) (w : Str) : Ws w → SeenMembers σ [] (w ++ ['}'])
  | more (σ : Shape) (k : Str) (v : Json) (kvs : List (Str × Json)) (w w' s t : Str) : Ws w → Ws w' →
      SeenMember σ k v s → SeenMembers σ kvs t →
      SeenMembers σ ((k, v) :: kvs) (w ++ ',' :: (w' ++ s ++ t))
end

/-- A whole text. -/
def SeenText (σ : Shape) (j : Json) (s : Str) : Prop :=
  ∃ w t w', Ws w ∧ SeenValue σ j t ∧ Ws w' ∧ s = w ++ t ++ w'

end Oid4vci.Spec
