import Verif.Model.Jwt

/-! Which proof JWTs do not have their whole body signed (C32). -/

namespace Oid4vci.Spec

/-- An unsigned JWT with exactly one dot in the texts of its header and body, which is taken for the
one before the signature. -/
def OneDot (x : Ext) (j : ProofJwt) : Prop :=
  j.signature = none ∧ j.header.ser.print.count '.' + (j.body.ser x).print.count '.' = 1

/-- The text before the first dot. -/
def beforeDot (s : Str) : Str := s.takeWhile (fun c => decide (c ≠ '.'))

end Oid4vci.Spec
