import Verif.Model.Chrono
import Verif.Base.Res

/-!
`DateTime<Utc>` of chrono 0.4.24 with its representation of leap seconds, for the claims `iat`, `nbf` and
`exp` (jwt/mod.rs:516-537) and for the creation time of a nonce (credential_issuer/mod.rs:403,
523-524). The main model counts nanoseconds (`Time`) and so takes the second 60 of a minute for the first
second of the next one; here a leap second is a value of its own, and the reading of a text follows
`Parsed::to_datetime` and `TimeZone::from_local_datetime`, with their panic.
-/

namespace Oid4vci
namespace Chrono

/-- `NaiveDateTime` in UTC: whole seconds since 1970-01-01T00:00:00 and a fraction in nanoseconds, which is
1 000 000 000 or more in the leap second after that second (`NaiveTime::frac`). -/
structure Moment where
  sec : Int
  frac : Nat
deriving DecidableEq, Repr

namespace Moment

/-- The second of `NaiveDateTime::MIN`. -/
def minSec : Int := -8334632851200

/-- The second of `NaiveDateTime::MAX`. -/
def maxSec : Int := 8210298412799

/-- Every `NaiveDateTime` value: a representable date, and a fraction below two seconds. -/
def Valid (m : Moment) : Prop := minSec ≤ m.sec ∧ m.sec ≤ maxSec ∧ m.frac < 2000000000

instance (m : Moment) : Decidable m.Valid := inferInstanceAs (Decidable (_ ∧ _ ∧ _))

/-- A value in a leap second. -/
def Leap (m : Moment) : Prop := 1000000000 ≤ m.frac

instance (m : Moment) : Decidable m.Leap := inferInstanceAs (Decidable (_ ≤ _))

/-- The derived `Ord` of `NaiveDateTime` (date, second of the day, fraction): strictly before. -/
def Before (a b : Moment) : Prop := a.sec < b.sec ∨ a.sec = b.sec ∧ a.frac < b.frac

instance (a b : Moment) : Decidable (a.Before b) := inferInstanceAs (Decidable (_ ∨ _))

/-- The value without leap second at a number of nanoseconds. -/
def ofNanos (t : Int) : Moment := ⟨t / 1000000000, (t % 1000000000).toNat⟩

/-- Nanoseconds since 1970, a leap second counted with the second after it: the value of the main model. -/
def nanos (m : Moment) : Int := m.sec * 1000000000 + m.frac

/-- `NaiveTime::overflowing_add_signed` on the whole count: `n` seconds later. A sum that stays in the leap
second keeps the representation; one that leaves it forwards counts the leap second, one that leaves it
backwards counts it too. -/
def plus (m : Moment) (n : Int) : Moment :=
  if 1000000000 ≤ m.frac then
    if 2000000000 - (m.frac : Int) ≤ n * 1000000000 then
      ofNanos ((m.sec + 1) * 1000000000 + (n * 1000000000 - (2000000000 - m.frac)))
    else if n * 1000000000 < -(m.frac : Int) then
      ofNanos (m.sec * 1000000000 + (n * 1000000000 + m.frac))
    else ⟨m.sec, (m.frac + n * 1000000000).toNat⟩
  else ofNanos (m.sec * 1000000000 + m.frac + n * 1000000000)

/-- `NaiveDateTime::checked_add_signed` of whole seconds. -/
def checkedAdd (m : Moment) (n : Int) : Option Moment := if (m.plus n).Valid then some (m.plus n) else none

/-- `NaiveDateTime + Duration` of whole seconds (```"`NaiveDateTime + Duration` overflowed"```), as
`expires_in` is added to the creation time of a nonce. -/
def add {ε : Type} (m : Moment) (n : Int) : Res ε Moment :=
  match m.checkedAdd n with
  | some r => .ok r
  | none => .panic

/-- `NaiveDateTime - FixedOffset` (`offset::fixed::add_with_leapsecond`): the fraction is taken off, the offset
subtracted, the fraction put back. -/
def minusOffset {ε : Type} (m : Moment) (off : Int) : Res ε Moment :=
  match (⟨m.sec, 0⟩ : Moment).add (-off) with
  | .ok r => .ok ⟨r.sec, m.frac⟩
  | .err e => .err e
  | .panic => .panic

/-- `DateTime<Utc>: Serialize`, from `NaiveTime: Debug`: in a leap second the second is written one higher and
the fraction without its whole second. -/
def written (m : Moment) : Str :=
  let sod := (m.sec % 86400).toNat
  let x := fromDaysFromCe (m.sec / 86400 + epochDay)
  let sec := if 1000000000 ≤ m.frac then sod % 60 + 1 else sod % 60
  let ns := if 1000000000 ≤ m.frac then m.frac - 1000000000 else m.frac
  showYear x.year ++ '-' :: (fixed 2 x.month ++ '-' :: (fixed 2 x.day ++ 'T' ::
    (fixed 2 (sod / 3600) ++ ':' :: (fixed 2 (sod / 60 % 60) ++ ':' ::
      (fixed 2 sec ++ (showFraction ns ++ ['Z']))))))

end Moment

/-- The time items of `FromStr for DateTime<FixedOffset>`, each by itself: hour, minute, second, nanosecond,
offset in seconds. -/
def clockFields (s : Str) : Option (Nat × Nat × Nat × Nat × Int × Str) := do
  let (h, s) ← numeric2 s
  let s ← separator ':' s
  let (mi, s) ← numeric2 s
  let s ← separator ':' s
  let (sec, s) ← numeric2 s
  let (ns, s) ← nanosecond s
  let (off, s) ← zulu (trimStart s)
  if h ≤ 23 ∧ mi ≤ 59 ∧ sec ≤ 60 ∧ -86400 < off ∧ off < 86400 then
    some (h, mi, sec, ns, off, trimStart s)
  else none

/-- `Parsed::to_naive_time` and `NaiveDate::and_time`: second 60 is kept as second 59 with a fraction of one
second and more. -/
def localMoment (x : Date) (h mi sec ns : Nat) : Moment :=
  ⟨(numDaysFromCe x - epochDay) * 86400 + (h * 3600 + mi * 60 + (if sec = 60 then 59 else sec) : Nat),
    if sec = 60 then 1000000000 + ns else ns⟩

/-- `Parsed::to_datetime` after the fields: the local time less the offset has to be representable (checked with
the arithmetic of leap seconds), then the offset is subtracted by the operator that panics. -/
def toDateTime (m : Moment) (off : Int) : Res Unit Moment :=
  match m.checkedAdd (-off) with
  | none => .err ()
  | some _ => m.minusOffset off

/-- `DateTime<Utc>: Deserialize` from a string. The error is left out. -/
def readDateTime (s : Str) : Res Unit Moment :=
  match parseDate s with
  | some (x, c :: s) =>
    if c = 'T' ∨ c = ' ' then
      match clockFields s with
      | some (h, mi, sec, ns, off, []) =>
        if validDate x then toDateTime (localMoment x h mi sec ns) off else .err ()
      | _ => .err ()
    else .err ()
  | _ => .err ()

/-- credential_issuer/mod.rs:523-534: the check of the nonce's expiry. The error carries the time of the check and
the expiry. -/
def checkExpiry (now created : Moment) (expiresIn : UInt32) : Res (Moment × Moment) Unit :=
  match created.add (expiresIn.toNat : Int) with
  | .ok expiry => if expiry.Before now then .err (now, expiry) else .ok ()
  | .err e => .err e
  | .panic => .panic

/-- jwt/mod.rs:146-168: `ProofJwt::verify` on the two claims; `true` when it succeeds. -/
def inPeriod (now : Moment) (notBefore expiresAt : Option Moment) : Bool :=
  (match notBefore with
    | some t => !decide (now.Before t)
    | none => true) &&
  match expiresAt with
    | some t => !decide (t.Before now)
    | none => true

end Chrono
end Oid4vci
