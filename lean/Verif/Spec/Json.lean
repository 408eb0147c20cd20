import Verif.Base.Json
import Verif.Spec.Double

/-! Which JSON documents the round-trip theorems speak about. -/

namespace Oid4vci.Spec

mutual
/-- The numbers are such as `serde_json::Number` holds: integers in the 64-bit ranges `i64`/`u64`, and
double-precision numbers. -/
def RustNumbers : Json → Prop
  | .null | .bool _ | .str _ => True
  | .num n => -2 ^ 63 ≤ n ∧ n < 2 ^ 64
  | .float d => IsDouble d.mant d.exp
  | .arr xs => RustNumbersList xs
  | .obj kvs => RustNumbersMembers kvs
/-- All elements. -/
def RustNumbersList : List Json → Prop
  | [] => True
  | x :: xs => RustNumbers x ∧ RustNumbersList xs
/-- All members. -/
def RustNumbersMembers : List (Str × Json) → Prop
  | [] => True
  | (_, v) :: kvs => RustNumbers v ∧ RustNumbersMembers kvs
end

mutual
/-- Moreover, the double-precision numbers survive being written and read (see C100). -/
def PlainNumbers : Json → Prop
  | .null | .bool _ | .str _ => True
  | .num n => -2 ^ 63 ≤ n ∧ n < 2 ^ 64
  | .float d => Survives d
  | .arr xs => PlainNumbersList xs
  | .obj kvs => PlainNumbersMembers kvs
/-- All elements. -/
def PlainNumbersList : List Json → Prop
  | [] => True
  | x :: xs => PlainNumbers x ∧ PlainNumbersList xs
/-- All members. -/
def PlainNumbersMembers : List (Str × Json) → Prop
  | [] => True
  | (_, v) :: kvs => PlainNumbers v ∧ PlainNumbersMembers kvs
end

mutual
/-- The number of nested arrays and objects. -/
def depth : Json → Nat
  | .arr xs => depthList xs + 1
  | .obj kvs => depthMembers kvs + 1
  | _ => 0
/-- The largest depth of an element. -/
def depthList : List Json → Nat
  | [] => 0
  | x :: xs => max (depth x) (depthList xs)
/-- The largest depth of a member. -/
def depthMembers : List (Str × Json) → Nat
  | [] => 0
  | (_, v) :: kvs => max (depth v) (depthMembers kvs)
end

end Oid4vci.Spec
