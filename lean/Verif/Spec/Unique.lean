import Verif.Spec.Wire

/-!
Documents any two readers understand alike: RFC 8259 section 4 says the names within an object SHOULD be
unique, RFC 7493 (I-JSON) section 2.3 that they MUST be, since of two members with one name some readers
take the first, some the last, and some reject the document.
-/

namespace Oid4vci.Spec

mutual
/-- No object of the document has two members with the same name, at any depth. -/
def UniqueNames : Json → Prop
  | .arr xs => UniqueNamesList xs
  | .obj kvs => (kvs.map Prod.fst).Nodup ∧ UniqueNamesMembers kvs
  | _ => True
/-- All elements. -/
def UniqueNamesList : List Json → Prop
  | [] => True
  | x :: xs => UniqueNames x ∧ UniqueNamesList xs
/-- All members. -/
def UniqueNamesMembers : List (Str × Json) → Prop
  | [] => True
  | (_, v) :: kvs => UniqueNames v ∧ UniqueNamesMembers kvs
end

/-- Any additional fields of issuer metadata. -/
def RustFields (o : Option (HMap Json)) : Prop := ∀ m ∈ o, UniqueKeys m ∧ ∀ p ∈ m, RustValue p.2

/-- The member names of an error response that have a field of their own (RFC 6749 section 5.2). -/
def errorFields : List Str := [str! "error", str! "error_description", str! "error_uri"]

end Oid4vci.Spec
