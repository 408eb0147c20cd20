import Mathlib.Data.List.Forall2
import Verif.Spec.Json
import Verif.Spec.Base64
import Verif.Spec.Wire

/-! Vocabulary for statements about proof JWTs. -/

namespace Oid4vci.Spec

/-- Segments separated by dots. -/
def dotted (segments : List Str) : Str := List.intercalate ['.'] segments

/-- A segment contains no dot. -/
def NoDot (s : Str) : Prop := '.' ∉ s

/-- The segment which carries a JSON document: base64url of its UTF-8 text. -/
def IsDocSegment (text : Str) (segment : Str) : Prop := IsBase64url (utf8Encode text) segment

/-- The letters, as upper-case and lower-case pairs. -/
def letterPairs : List (Char × Char) :=
  (str! "ABCDEFGHIJKLMNOPQRSTUVWXYZ").zip (str! "abcdefghijklmnopqrstuvwxyz")

/-- The same character, or the same letter in the other case. -/
def SameLetter (c d : Char) : Prop := c = d ∨ (c, d) ∈ letterPairs ∨ (d, c) ∈ letterPairs

/-- Equal up to letter case. -/
def EqFold (a b : Str) : Prop := List.Forall₂ SameLetter a b

/-- The `typ` of a proof JWT. -/
def proofTyp : Str := str! "openid4vci-proof+jwt"

/-- The instant lies in the validity window of the body, both bounds included. -/
def InWindow (b : ProofJwtBody) (now : Time) : Prop :=
  (∀ nb ∈ b.notBefore, nb ≤ now) ∧ ∀ ex ∈ b.expiresAt, now ≤ ex

/-- No string that goes into the header has a dot. -/
def HeaderDotFree (h : ProofJwtHeader) : Prop :=
  NoDot h.typ ∧ ∀ a ∈ h.additionalHeader, match a with
    | .keyId s => NoDot s
    | .jwk s => NoDot s
    | .x5c s => NoDot s

/-- No string that goes into the body has a dot. -/
def BodyDotFree (x : Ext) (b : ProofJwtBody) : Prop :=
  (∀ s ∈ b.issuer, NoDot s) ∧ NoDot b.audience ∧ (∀ s ∈ b.subject, NoDot s) ∧
  NoDot (x.showTime b.issuedAt) ∧ NoDot b.nonce ∧
  (∀ t ∈ b.notBefore, NoDot (x.showTime t)) ∧ ∀ t ∈ b.expiresAt, NoDot (x.showTime t)

/-- The number of members of a JSON object with a key from `names`. -/
def memberCount (names : List Str) (kvs : List (Str × Json)) : Nat :=
  kvs.countP fun p => decide (p.1 ∈ names)

end Oid4vci.Spec
