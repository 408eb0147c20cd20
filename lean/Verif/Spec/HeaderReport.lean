import Verif.Spec.JsonReport

/-! Reports about the header of a proof JWT. -/

namespace Oid4vci.Spec

/-- The members of a header that are not about the key. -/
def typAlg : List Str := [str! "typ", str! "alg"]

/-- What they have to be. -/
def HeaderValue (k : Str) (v : Json) : Prop :=
  (k = str! "typ" → ∃ s, IsText v s) ∧ (k = str! "alg" → ∃ a, AlgorithmDoc v a)

/-- The beginning of a header up to the place where the next name is due: `typ` and `alg` are what they have to be
and do not occur twice. Other members are read as well; at most 126 brackets may be open in them. -/
inductive HeaderStart : List (Str × Json) → Str → Prop
  | brace (w w' : Str) : Ws w → Ws w' → HeaderStart [] (w ++ '{' :: w')
  | member (kvs : List (Str × Json)) (t k : Str) (v : Json) (s u w w' : Str) : HeaderStart kvs t →
      MemberText k v s → depth v ≤ 126 → Utf8Text s u → HeaderValue k v → (k ∈ typAlg → k ∉ kvs.map Prod.fst) →
      Ws w → Ws w' → HeaderStart (kvs ++ [(k, v)]) (t ++ u ++ w ++ ',' :: w')

/-- The algorithms as a report lists them. -/
def algorithmList : Str :=
  str! "one of `HS256`, `HS384`, `HS512`, `RS256`, `RS384`, `RS512`, `ES256`, `ES384`, `ES512`, `PS256`, `PS384`, `PS512`, `EdDSA`, `ES256K`, `ECDH-ES`, `none`"

end Oid4vci.Spec
