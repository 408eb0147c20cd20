import Verif.Base.Serde

/-! Members that are `null`. -/

namespace Oid4vci.Spec

/-- The second list of members is the first one with one more, whose name is new and whose value is `null`. -/
def NullAdded (kvs kvs' : List (Str × Json)) : Prop :=
  ∃ before after name, kvs = before ++ after ∧ kvs' = before ++ (name, .null) :: after ∧
    name ∉ (before ++ after).map Prod.fst

/-- Objects are read alike with and without members that are `null`. -/
def NullIgnored {α : Type} (de : Json → Option α) : Prop :=
  ∀ kvs kvs', NullAdded kvs kvs' → de (.obj kvs') = de (.obj kvs)

end Oid4vci.Spec
