import Verif.Props.TimeFault

/-!
Errors of chrono 0.4.24 about date-times (tests, not theorems). Several of the texts occur in its tests of `FromStr for
DateTime<Utc>`; the messages follow from its sources.
-/

namespace Oid4vci.Tests

open Chrono

/-! Texts of another form -/
example : parseError [] = some .tooShort := by decide +kernel
example : parseError (str! "Z") = some .invalid := by decide +kernel
example : parseError (str! "15Z") = some .invalid := by decide +kernel
example : parseError (str! "15:8:9Z") = some .invalid := by decide +kernel
example : parseError (str! "15-8-9Z") = some .invalid := by decide +kernel
example : parseError (str! "Fri, 09 Aug 2013 23:54:35 GMT") = some .invalid := by decide +kernel
example : parseError (str! "Sat Jun 30 23:59:60 2012") = some .invalid := by decide +kernel
example : parseError (str! "1441497364.649") = some .invalid := by decide +kernel
example : parseError (str! "+1441497364.649") = some .invalid := by decide +kernel
example : parseError (str! "+1441497364") = some .tooShort := by decide +kernel
example : parseError (str! "2014/02/03 04:05:06") = some .invalid := by decide +kernel
example : parseError (str! "20140203T040506Z") = some .invalid := by decide +kernel
example : parseError (str! "2012-12-12T12:12Z") = some .invalid := by decide +kernel
example : parseError (str! "2012-12-12T12") = some .tooShort := by decide +kernel
example : parseError (str! "2012-12-12 T12:12:12Z") = some .invalid := by decide +kernel
example : parseError (str! "+ 2012-12-12T12:12:12Z") = some .invalid := by decide +kernel
example : parseError (str! "+") = some .tooShort := by decide +kernel
example : parseError (str! "2012-12-12t12:12:12Z") = some .invalid := by decide +kernel
example : parseError (str! "2012-12-12T") = some .tooShort := by decide +kernel
example : parseError (str! "2012-12-") = some .tooShort := by decide +kernel
example : parseError (str! "2012-12-12") = some .notEnough := by decide +kernel
example : parseError (str! "2012-12-12 ") = some .tooShort := by decide +kernel

/-! Offsets -/
example : parseError (str! "2012-12-12T12:12:12") = some .tooShort := by decide +kernel
example : parseError (str! "2012-12-12T12:12:12x") = some .invalid := by decide +kernel
example : parseError (str! "2012-12-12T12:12:12+") = some .tooShort := by decide +kernel
example : parseError (str! "2012-12-12T12:12:12+0") = some .tooShort := by decide +kernel
example : parseError (str! "2012-12-12T12:12:12+x") = some .tooShort := by decide +kernel
example : parseError (str! "2012-12-12T12:12:12+é") = some .invalid := by decide +kernel
example : parseError (str! "2012-12-12T12:12:12+00") = some .tooShort := by decide +kernel
example : parseError (str! "2012-12-12T12:12:12+00:") = some .tooShort := by decide +kernel
example : parseError (str! "2012-12-12T12:12:12+00:é") = some .invalid := by decide +kernel
example : parseError (str! "2012-12-12T12:12:12+00:0x") = some .invalid := by decide +kernel
example : parseError (str! "2012-12-12T12:12:12+00:60") = some .outOfRange := by decide +kernel
example : parseError (str! "2012-12-12T12:12:12+24:00") = some .outOfRange := by decide +kernel
example : parseError (str! "2012-12-12T12:12:12+23:59") = none := by decide +kernel
example : parseError (str! "2012-12-12T12:12:12UT") = some .invalid := by decide +kernel
example : parseError (str! "2012-12-12T12:12:12utc") = none := by decide +kernel
example : parseError (str! "2012-12-12T12:12:12GMT") = some .invalid := by decide +kernel
example : parseError (str! "2012-12-12T12:12:12ZZ") = some .tooLong := by decide +kernel
example : parseError (str! "2012-12-12T12:12:12+0000 0") = some .tooLong := by decide +kernel

/-! Fractions -/
example : parseError (str! "2012-12-12T12:12:12.") = some .tooShort := by decide +kernel
example : parseError (str! "2012-12-12T12:12:12.Z") = some .invalid := by decide +kernel
example : parseError (str! "2012-12-12T12:12:12,5Z") = some .invalid := by decide +kernel
example : parseError (str! "2012-12-12T12:12:12.1234567890123Z") = none := by decide +kernel

/-! Values -/
example : parseError (str! "2015-15-15T15:15:15Z") = some .outOfRange := by decide +kernel
example : parseError (str! "2012-123-12T12:12:12+00:00") = some .invalid := by decide +kernel
example : parseError (str! "2012-12-77T12:12:12+00:00") = some .outOfRange := by decide +kernel
example : parseError (str! "2012-12-12T26:12:12+00:00") = some .outOfRange := by decide +kernel
example : parseError (str! "2012-12-12T12:61:12+00:00") = some .outOfRange := by decide +kernel
example : parseError (str! "2012-12-12T12:12:62+00:00") = some .outOfRange := by decide +kernel
example : parseError (str! "+802701-12-12T12:12:12Z") = some .outOfRange := by decide +kernel
example : parseError (str! "+2147483648-x") = some .outOfRange := by decide +kernel
example : parseError (str! "+2147483647-x") = some .invalid := by decide +kernel
example : parseError (str! "-2147483649") = some .outOfRange := by decide +kernel
example : parseError (str! "-2147483648") = some .tooShort := by decide +kernel
example : parseError (str! "+9223372036854775808") = some .outOfRange := by decide +kernel
example : parseError (str! "+262143-12-31T23:59:59-00:01") = some .outOfRange := by decide +kernel
example : parseError (str! "2023-02-29T00:00:00Z") = some .outOfRange := by decide +kernel

/-! Texts that are read -/
example : parseError (str! "2012-12-12T12:12:12Z") = none := by decide +kernel
example : parseError (str! "2015-2-18T23:16:9.153Z") = none := by decide +kernel
example : parseError (str! "+82701  -  5  -  6 T 15  :  9  : 60.898989898989 Z") = some .invalid := by decide +kernel
example : parseError (str! "  +82701  -  5  -  6T 15  :  9  : 60.898989898989  Z ") = none := by decide +kernel
example : parseError (str! "-77-02-18T23:16:09Z") = none := by decide +kernel

end Oid4vci.Tests
