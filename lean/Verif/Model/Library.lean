import Verif.Model.Engine
import Verif.Model.Method
import Verif.Model.TimeError
import Verif.Model.Unreadable
import Verif.Model.Chrono

/-!
All externals at once: chrono, base64, serde_json's error texts, ssi-dids and ssi-jwk by their models. What is left open
about them is in one record.
-/

namespace Oid4vci

/-- Everything about the other crates which is left open. -/
structure LibraryRules where
  select : SelectRules
  jwk : JwkRules
  method : MethodRules
  texts : Reading.Texts
  flattenNullOk : Bool

/-- The externals by their models. -/
def library (L : LibraryRules) : Ext :=
  let x : Ext := withBase64 (withMethods L.select L.jwk L.method
    { parseTime := Chrono.parseTime
      showTime := Chrono.showTime
      dispTime := Chrono.dispTime
      base64Msg := fun _ => []
      headerMsg := fun _ => []
      bodyMsg := fun _ => []
      Doc := Unit
      VM := Unit
      didUrl := fun _ => .error []
      didUrlDisplay := fun _ => []
      select := fun _ _ => .other
      getJwk := fun _ => .error []
      parseJwk := fun _ => .error []
      flattenNullOk := L.flattenNullOk })
  withJson x (withTimes L.texts)

end Oid4vci
