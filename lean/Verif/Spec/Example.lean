import Verif.Model.Ext
import Verif.Base.Json

/-! A concrete instance of the externals, for examples and counterexamples. -/

namespace Oid4vci.Ex

/-- Instants are written as nanoseconds in decimal; DID URLs are cut at `/`, `?` and `#`; a DID
document is a list of fragments with their keys. -/
def ext : Ext where
  parseTime s := match Json.parse s with
    | some (.num n) => some n
    | _ => none
  showTime := Json.printInt
  dispTime := Json.printInt
  base64Msg _ := str! "base64"
  headerMsg _ := str! "header"
  bodyMsg _ := str! "body"
  Doc := List (Str × Jwk)
  VM := Jwk
  didUrl s :=
    if (str! "did:").isPrefixOf s then
      .ok ⟨s.takeWhile fun c => c ∉ ['/', '?', '#'], [], none,
        if '#' ∈ s then some ((s.dropWhile fun c => c ≠ '#').drop 1) else none⟩
    else .error (str! "not a DID")
  didUrlDisplay d := d.did
  select doc d := match doc.find? fun p => some p.1 = d.fragment with
    | some p => .verificationMethod p.2
    | none => .error (str! "not found")
  getJwk := .ok
  parseJwk _ := .error (str! "no JWK")
  flattenNullOk := false

end Oid4vci.Ex
