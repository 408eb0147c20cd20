import Verif.Spec.Json
import Verif.Model.Issuer

/-!
Which Rust values the serialisation theorems speak about. `UniqueKeys` and `Normal` hold for every
Rust value by construction of its type (`HashMap`, `serde_json::Value`), and so does `RustNumbers`;
`PlainNumbers` and the depth bounds are genuine restrictions.
-/

namespace Oid4vci.Spec

/-- A `HashMap` has every key once. -/
def UniqueKeys {α : Type} (m : HMap α) : Prop := (m.map Prod.fst).Nodup

mutual
/-- A `serde_json::Value`: the members of every object are sorted by key, without duplicates. -/
def Normal : Json → Prop
  | .arr xs => NormalList xs
  | .obj kvs => kvs.Pairwise (fun p q => p.1 < q.1) ∧ NormalMembers kvs
  | _ => True
/-- All elements. -/
def NormalList : List Json → Prop
  | [] => True
  | x :: xs => Normal x ∧ NormalList xs
/-- All members. -/
def NormalMembers : List (Str × Json) → Prop
  | [] => True
  | (_, v) :: kvs => Normal v ∧ NormalMembers kvs
end

/-- Any `serde_json::Value`. -/
def RustValue (j : Json) : Prop := Normal j ∧ RustNumbers j

/-- Any JSON-LD context. -/
def RustContext : LinkedDataContext → Prop
  | .string _ => True
  | .map m => UniqueKeys m ∧ ∀ p ∈ m, RustValue p.2

/-- Any credential. -/
def RustCredential : CredentialFormatProfile → Prop
  | .jwtVcJson _ cs _ => ∀ m ∈ cs, UniqueKeys m
  | .jwtVcJsonLd _ cs _ => ∀ m ∈ cs, UniqueKeys m
  | .ldpVc ctx _ cs _ => (∀ c ∈ ctx, RustContext c) ∧ ∀ m ∈ cs, UniqueKeys m
  | .msoMdoc _ cs _ => ∀ m ∈ cs, UniqueKeys m

/-- Any entry. -/
def RustEntry : CredentialOrId → Prop
  | .credentialId _ => True
  | .credential c => RustCredential c

/-- A JSON value with plain numbers and at most `n` levels of nesting. -/
def GoodValue (n : Nat) (j : Json) : Prop := Normal j ∧ PlainNumbers j ∧ depth j ≤ n

/-- A JSON-LD context whose values are nested at most `n` deep. -/
def GoodContext (n : Nat) : LinkedDataContext → Prop
  | .string _ => True
  | .map m => UniqueKeys m ∧ ∀ p ∈ m, GoodValue n p.2

/-- A credential whose JSON-LD contexts have values nested at most `n` deep. -/
def GoodCredential (n : Nat) : CredentialFormatProfile → Prop
  | .jwtVcJson _ cs _ => ∀ m ∈ cs, UniqueKeys m
  | .jwtVcJsonLd _ cs _ => ∀ m ∈ cs, UniqueKeys m
  | .ldpVc ctx _ cs _ => (∀ c ∈ ctx, GoodContext n c) ∧ ∀ m ∈ cs, UniqueKeys m
  | .msoMdoc _ cs _ => ∀ m ∈ cs, UniqueKeys m

/-- The inline credentials of an entry are good. -/
def GoodEntry (n : Nat) : CredentialOrId → Prop
  | .credentialId _ => True
  | .credential c => GoodCredential n c

/-- Every timestamp of the body survives printing and parsing. -/
def TimesOk (x : Ext) (b : ProofJwtBody) : Prop :=
  x.parseTime (x.showTime b.issuedAt) = some b.issuedAt ∧
  (∀ t ∈ b.notBefore, x.parseTime (x.showTime t) = some t) ∧
  (∀ t ∈ b.expiresAt, x.parseTime (x.showTime t) = some t)

/-- The member names of issuer metadata that have a field of their own. -/
def metadataFields : List Str :=
  [str! "credential_issuer", str! "authorization_server", str! "credential_endpoint",
   str! "batch_credential_endpoint", str! "credentials_supported"]

end Oid4vci.Spec
