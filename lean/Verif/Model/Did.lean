import Verif.Model.Ext

/-!
DID URLs as ssi-dids 0.1.0 (the version in Cargo.lock) reads and prints them, for the `kid` of a proof
(jwt/mod.rs:182, 344) and for the report of a key that is not in the document (jwt/mod.rs:364-367). ssi-dids
is not part of the repository; this module instantiates the fields `didUrl` and `didUrlDisplay` of `Ext`, over
which the theorems quantify.
-/

namespace Oid4vci
namespace Did

/-- `str::splitn(2, c)`: what precedes the first `c`, and what follows it. -/
def splitAt (c : Char) : Str → Str × Option Str
  | [] => ([], none)
  | d :: s => if d = c then ([], some s) else
    let (a, b) := splitAt c s
    (d :: a, b)

/-- `str::find('/')` and `str::split_at`: the slash stays with the second part. -/
def splitPath : Str → Str × Str
  | [] => ([], [])
  | d :: s => if d = '/' then ([], d :: s) else
    let (a, b) := splitPath s
    (d :: a, b)

/-- `DIDURL::from_str`: the fragment is what follows the first `#`, the query what follows the first `?` before
it, the path begins with the first `/` before that. Only the prefix `did:` is required
(`Error::DIDURL` is displayed as `Invalid DID URL`). -/
def parse (s : Str) : Except Str DidUrl :=
  let (s, fragment) := splitAt '#' s
  if (str! "did:").isPrefixOf s then
    let (s, query) := splitAt '?' s
    let (did, path) := splitPath s
    .ok ⟨did, path, query, fragment⟩
  else .error (str! "Invalid DID URL")

/-- An optional component with its delimiter. -/
def showPart (c : Char) : Option Str → Str
  | some s => c :: s
  | none => []

/-- `DIDURL: Display`. -/
def display (u : DidUrl) : Str := u.did ++ (u.path ++ (showPart '?' u.query ++ showPart '#' u.fragment))

end Did

/-- The externals with DID URLs as ssi-dids has them. -/
def withDids (x : Ext) : Ext := { x with didUrl := Did.parse, didUrlDisplay := Did.display }

end Oid4vci
