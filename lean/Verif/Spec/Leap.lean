import Verif.Spec.Instant
import Verif.Model.Leap

/-! Date-time texts with leap seconds as instants of their own. -/

namespace Oid4vci.Spec
open Chrono (Date Moment)

/-- A text of the library's format and what it says: day number, hour, minute, second, nanosecond, offset. -/
def DateTimeText (s : Str) (x : Date) (h mi sec ns : Nat) (off : Int) : Prop :=
  ∃ (date clock : Str) (sep : Char), s = date ++ sep :: clock ∧ DateText date x ∧ sep ∈ ['T', ' '] ∧
    ClockText clock h mi sec ns off ∧ h ≤ 23 ∧ mi ≤ 59 ∧ sec ≤ 60 ∧ -86400 < off ∧ off < 86400 ∧
    IsDate x ∧ -262144 ≤ x.year ∧ x.year ≤ 262143

/-- The seconds since 1970 of a local time, all minutes having 60 seconds. -/
def secondOf (day : Int) (h mi sec : Nat) (off : Int) : Int := day * 86400 + (h * 3600 + mi * 60 + sec : Nat) - off

/-- The moment a text says: an ordinary second, or the leap second after second 59. -/
inductive SaysMoment (day : Int) (h mi : Nat) (ns : Nat) (off : Int) : Nat → Moment → Prop
  | ordinary (sec : Nat) : sec ≤ 59 → SaysMoment day h mi ns off sec ⟨secondOf day h mi sec off, ns⟩
  | leap : SaysMoment day h mi ns off 60 ⟨secondOf day h mi 59 off, 1000000000 + ns⟩

/-- The moment's second lies in the library's range of dates. -/
def InRange (m : Moment) : Prop := -8334632851200 ≤ m.sec ∧ m.sec ≤ 8210298412799

instance (m : Moment) : Decidable (InRange m) := inferInstanceAs (Decidable (_ ∧ _))

/-- A text and the moment it denotes. -/
def MomentText (s : Str) (m : Moment) : Prop :=
  ∃ (x : Date) (h mi sec ns : Nat) (off day : Int), DateTimeText s x h mi sec ns off ∧ DayNumber x day ∧
    SaysMoment day h mi ns off sec m ∧ InRange m

/-- A leap second on the first representable day, in a zone whose offset puts it one second before that day's
beginning in UTC. -/
def BeforeTheBeginning (s : Str) : Prop :=
  ∃ (h mi ns : Nat), DateTimeText s ⟨-262144, 1, 1⟩ h mi 60 ns ((h * 3600 + mi * 60 + 60 : Nat) : Int)

/-- Written with second 60 of a whole minute. -/
def OnTheMinute (m : Moment) : Prop := m.sec % 60 = 59

/-- The nanoseconds from one moment to another outside leap seconds, when the leap second in which the first may
lie is counted, and no others. -/
def elapsed (a b : Moment) : Int :=
  if 1000000000 ≤ a.frac ∧ a.sec < b.sec then
    (b.sec - a.sec) * 1000000000 + b.frac - (a.frac - 1000000000)
  else (b.sec - a.sec) * 1000000000 + b.frac - a.frac

end Oid4vci.Spec
