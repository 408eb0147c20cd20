import Verif.Spec.Token
import Verif.Spec.Jwt
import Verif.Spec.Offer
import Verif.Spec.Response
import Verif.Model.Request

/-! Specification of the messages of failed validations. -/

namespace Oid4vci.Spec

/-- A check that fails exactly under this condition, with this message. -/
def Refuses {α : Type} (bad : Prop) (msg : Str) (r : ValidationResult α) : Prop :=
  (∀ e, r = .err e ↔ bad ∧ e = .any msg) ∧ r ≠ .panic

/-- A check that never fails. -/
def Passes (r : ValidationResult Unit) : Prop := r = .ok ()

/-- A number with this many decimal digits. -/
def HasDigits (k n : Nat) : Prop := (Nat.digits 10 n).length = k

/-- The message about a PIN that is too long (access_token/mod.rs:112). -/
def pinMessage (maximum supplied : Nat) : Str :=
  str! "user pin exeeded length. Maximum is " ++ Nat.toDigits 10 maximum ++ str! ", supplied is " ++
    Nat.toDigits 10 supplied

end Oid4vci.Spec
