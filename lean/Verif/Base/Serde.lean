import Verif.Base.Json

/-!
The behaviour of `#[derive(Serialize, Deserialize)]` (serde 1.0.163) on JSON documents, as far as the
crate's types use it. A deserialiser is a function `Json → Option α`; error messages are not
modelled at this level (they are functions of the input, see `Ext.headerMsg` and `Ext.bodyMsg`).
-/

namespace Oid4vci

/-- `HashMap<String, α>`: its entries in some iteration order. Rust's iteration order is arbitrary;
every order is some list. -/
abbrev HMap (α : Type) := List (Str × α)

namespace Serde

/-- A deserialiser. -/
abbrev De (α : Type) := Json → Option α

/-- `String`. -/
def string : De Str
  | .str s => some s
  | _ => none

/-- `bool`. -/
def bool : De Bool
  | .bool b => some b
  | _ => none

/-- `u32`: an integer in range; floats and negative numbers are errors. -/
def u32 : De UInt32
  | .num n => if 0 ≤ n ∧ n < 2 ^ 32 then some (UInt32.ofNat n.toNat) else none
  | _ => none

/-- `u64`. -/
def u64 : De UInt64
  | .num n => if 0 ≤ n ∧ n < 2 ^ 64 then some (UInt64.ofNat n.toNat) else none
  | _ => none

/-- `Option<T>`: `null` is `None`. -/
def option {α : Type} (d : De α) : De (Option α)
  | .null => some none
  | j => (d j).map some

/-- Apply a deserialiser to every element; all have to succeed. -/
def all {α : Type} (d : De α) : List Json → Option (List α)
  | [] => some []
  | x :: xs =>
    match d x, all d xs with
    | some a, some as => some (a :: as)
    | _, _ => none

/-- `Vec<T>`. -/
def vec {α : Type} (d : De α) : De (List α)
  | .arr xs => all d xs
  | _ => none

/-- `HashMap::insert`: a later value for the same key replaces the earlier one. -/
def hinsert {α : Type} (m : HMap α) (k : Str) (v : α) : HMap α :=
  match m with
  | [] => [(k, v)]
  | (k', v') :: m => if k = k' then (k, v) :: m else (k', v') :: hinsert m k v

/-- Collect the members of an object into a map, in document order. -/
def entries {α : Type} (d : De α) (acc : HMap α) : List (Str × Json) → Option (HMap α)
  | [] => some acc
  | (k, j) :: r =>
    match d j with
    | some a => entries d (hinsert acc k a) r
    | none => none

/-- `HashMap<String, T>`. -/
def hmap {α : Type} (d : De α) : De (HMap α)
  | .obj kvs => entries d [] kvs
  | _ => none

/-- `String: Ord`, lexicographic (code point order and UTF-8 byte order agree). -/
def strLt : Str → Str → Bool
  | [], [] => false
  | [], _ :: _ => true
  | _ :: _, [] => false
  | a :: as, b :: bs => if a.toNat < b.toNat then true else if b.toNat < a.toNat then false
    else strLt as bs

/-- `BTreeMap::insert`. -/
def binsert (m : List (Str × Json)) (k : Str) (v : Json) : List (Str × Json) :=
  match m with
  | [] => [(k, v)]
  | (k', v') :: m' =>
    if k = k' then (k, v) :: m'
    else if strLt k k' then (k, v) :: m else (k', v') :: binsert m' k v

mutual
/-- `serde_json::Value`: objects become maps sorted by key (serde_json without `preserve_order`;
`indexmap` is not among its dependencies in Cargo.lock), later duplicates win. -/
def value : Json → Json
  | .arr xs => .arr (valueList xs)
  | .obj kvs => .obj (valueEntries [] kvs)
  | j => j
/-- Elements of an array. -/
def valueList : List Json → List Json
  | [] => []
  | x :: xs => value x :: valueList xs
/-- Members of an object. -/
def valueEntries (acc : List (Str × Json)) : List (Str × Json) → List (Str × Json)
  | [] => acc
  | (k, j) :: r => valueEntries (binsert acc k (value j)) r
end

/-- The values of all members with a given key, in document order. -/
def occurrences (k : Str) (kvs : List (Str × Json)) : List Json :=
  (kvs.filter (fun p => decide (p.1 = k))).map Prod.snd

/-- One struct field from an object: absent, present once, or `duplicate field` error. -/
def field (k : Str) (kvs : List (Str × Json)) : Option (Option Json) :=
  match occurrences k kvs with
  | [] => some none
  | [j] => some (some j)
  | _ => none

/-- All fields of a struct, from the members of an object; unknown members are ignored. -/
def fields : List Str → List (Str × Json) → Option (List (Option Json))
  | [], _ => some []
  | k :: ks, kvs =>
    match field k kvs, fields ks kvs with
    | some o, some os => some (o :: os)
    | _, _ => none

/-- A derived struct without `flatten`: an object with each field at most once, or an array with
exactly one element per field (`visit_seq`). -/
def struct (names : List Str) : De (List (Option Json))
  | .obj kvs => fields names kvs
  | .arr xs => if xs.length = names.length then some (xs.map some) else none
  | _ => none

/-- A derived struct with a `flatten` field: only objects; the members that are not named fields
are handed to the flattened field, in document order. -/
def structFlat (names : List Str) : Json → Option (List (Option Json) × List (Str × Json))
  | .obj kvs => (fields names kvs).map fun fs => (fs, kvs.filter (fun p => decide (p.1 ∉ names)))
  | _ => none

/-- A required field. -/
def req {α : Type} (d : De α) : Option Json → Option α
  | some j => d j
  | none => none

/-- A field of type `Option<T>`: a missing one is `None`. -/
def opt {α : Type} (d : De α) : Option Json → Option (Option α)
  | some j => option d j
  | none => some none

/-- A field with `#[serde(default = ..)]`. -/
def dflt {α : Type} (d : De α) (a : α) : Option Json → Option α
  | some j => d j
  | none => some a

/-- An internally tagged enum (`#[serde(tag = ..)]`): the tag's value and the remaining content.
Objects must have the tag exactly once; an array has it as first element. -/
def tagged (tag : Str) : Json → Option (Json × Json)
  | .obj kvs =>
    match field tag kvs with
    | some (some t) => some (t, .obj (kvs.filter (fun p => decide (p.1 ≠ tag))))
    | _ => none
  | .arr (t :: r) => some (t, .arr r)
  | _ => none

/-- The variant selected by a tag. If the document went through serde's `Content` buffer
(`buffered`: below `flatten` or `untagged`), the variant index is accepted as well
(`ContentRefDeserializer::deserialize_identifier`). -/
def variant (names : List Str) (buffered : Bool) : Json → Option Nat
  | .str s => names.findIdx? (· == s)
  | .num n => if buffered && 0 ≤ n && n < names.length then some n.toNat else none
  | _ => none

/-- Serialise `Option<T>` without `skip_serializing_if`. -/
def serOpt {α : Type} (f : α → Json) : Option α → Json
  | some a => f a
  | none => .null

/-- A field with `skip_serializing_if = "Option::is_none"`. -/
def skipNone {α : Type} (k : Str) (f : α → Json) : Option α → List (Str × Json)
  | some a => [(k, f a)]
  | none => []

/-- Serialise a map. -/
def serMap {α : Type} (f : α → Json) (m : HMap α) : Json := .obj (m.map fun p => (p.1, f p.2))

/-- Serialise a vector. -/
def serVec {α : Type} (f : α → Json) (xs : List α) : Json := .arr (xs.map f)

end Serde

end Oid4vci
