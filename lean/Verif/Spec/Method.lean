import Verif.Model.Method
import Verif.Spec.Document
import Verif.Spec.Jwk

/-! The key of a verification method (DID Core section 5.2.1). -/

namespace Oid4vci.Spec

/-- Key material, in one of the four forms. -/
inductive KeyMaterial where
  | jwk (algorithm : Option SsiAlg) (key : JwkKey)
  | base58 (text : Str)
  | hex (value : Json)
  | multibase (value : Json)

/-- The method has this material. -/
inductive HasMaterial (m : MethodMap) : KeyMaterial → Prop
  | jwk (a : Option SsiAlg) (k : JwkKey) : m.publicKeyJwk = some (a, k) → HasMaterial m (.jwk a k)
  | base58 (s : Str) : m.publicKeyBase58 = some s → HasMaterial m (.base58 s)
  | hex (v : Json) : m.property (str! "publicKeyHex") = some v → HasMaterial m (.hex v)
  | multibase (v : Json) : m.property (str! "publicKeyMultibase") = some v → v ≠ .null → HasMaterial m (.multibase v)

/-- The key which material means in a method of this type. -/
inductive MaterialKey (M : MethodRules) (type : Str) : KeyMaterial → Option SsiAlg → JwkKey → Prop
  | jwk (a : Option SsiAlg) (k : JwkKey) : MaterialKey M type (.jwk a k) a k
  | base58 (s : Str) (b : Bytes) (a : Option SsiAlg) (k : JwkKey) : M.base58 s = .ok b → M.raw type b = .ok (a, k) →
      MaterialKey M type (.base58 s) a k
  | hex (s : Str) (b : Bytes) (a : Option SsiAlg) (k : JwkKey) : M.hex s = .ok b → M.raw type b = .ok (a, k) →
      MaterialKey M type (.hex (.str s)) a k
  | multibase (s : Str) (b : Bytes) (a : Option SsiAlg) (k : JwkKey) : M.multibase s = .ok b → M.raw type b = .ok (a, k) →
      MaterialKey M type (.multibase (.str s)) a k

/-- Why material means no key in a method of this type. -/
inductive MaterialError (M : MethodRules) (type : Str) : KeyMaterial → Str → Prop
  | base58 (s e : Str) : M.base58 s = .error e → MaterialError M type (.base58 s) e
  | base58Key (s e : Str) (b : Bytes) : M.base58 s = .ok b → M.raw type b = .error e → MaterialError M type (.base58 s) e
  | noText (v : Json) : (∀ s, v ≠ .str s) → MaterialError M type (.hex v) M.hexText
  | hex (s e : Str) : M.hex s = .error e → MaterialError M type (.hex (.str s)) e
  | hexKey (s e : Str) (b : Bytes) : M.hex s = .ok b → M.raw type b = .error e → MaterialError M type (.hex (.str s)) e
  | multibase (s e : Str) : M.multibase s = .error e → MaterialError M type (.multibase (.str s)) e
  | multibaseKey (s e : Str) (b : Bytes) : M.multibase s = .ok b → M.raw type b = .error e →
      MaterialError M type (.multibase (.str s)) e

/-- The key of a method: what its only material means. -/
def MethodKey (M : MethodRules) (m : MethodMap) (a : Option SsiAlg) (k : JwkKey) : Prop :=
  ∃ km, HasMaterial m km ∧ (∀ km', HasMaterial m km' → km' = km) ∧ MaterialKey M m.type km a k

/-- Why a method has no key. -/
inductive MethodError (M : MethodRules) (m : MethodMap) : Str → Prop
  /-- no material at all -/
  | missing : (∀ km, ¬ HasMaterial m km) → MethodError M m M.missing
  /-- a `publicKeyMultibase` that is no text, whatever else there is -/
  | noMultibase (v : Json) : HasMaterial m (.multibase v) → (∀ s, v ≠ .str s) → MethodError M m M.multibaseText
  /-- two materials -/
  | multiple (km km' : KeyMaterial) : HasMaterial m km → HasMaterial m km' → km ≠ km' →
      (∀ v, HasMaterial m (.multibase v) → ∃ s, v = .str s) → MethodError M m M.multiple
  /-- its only material means no key -/
  | material (km : KeyMaterial) (e : Str) : HasMaterial m km → (∀ km', HasMaterial m km' → km' = km) →
      MaterialError M m.type km e → MethodError M m e

end Oid4vci.Spec
