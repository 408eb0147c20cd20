import Verif.Model.Leap
import Verif.Model.Unreadable

/-!
What chrono 0.4.24 reports about a text that is not a date-time: the message behind `iat`, `nbf` and `exp`
(jwt/mod.rs:516-537) when they are strings of another form. chrono is not part of the repository; this module follows
`FromStr for DateTime<FixedOffset>`, `format::parse_internal` and `format::scan`. It instantiates the field `time` of
`Texts`, over which the theorems quantify.
-/

namespace Oid4vci
namespace Chrono

/-- `ParseErrorKind`, without the kinds that no date-time text leads to (`Impossible`, `BadFormat`). -/
inductive ParseError
  | outOfRange | notEnough | invalid | tooShort | tooLong
deriving DecidableEq, Repr

/-- `ParseError: Display`. -/
def ParseError.text : ParseError → Str
  | .outOfRange => str! "input is out of range"
  | .notEnough => str! "input is not enough for unique date and time"
  | .invalid => str! "input contains invalid characters"
  | .tooShort => str! "premature end of input"
  | .tooLong => str! "trailing input"

/-- `Item`, as far as it is used: white space, a literal, the year, a number of two digits (month, day, hour, minute and
second are set alike), the fraction and the offset. -/
inductive Item
  | space | literal (c : Char) | year | two | nanosecond | zone
deriving DecidableEq, Repr

/-- `scan::number` with at least one digit. -/
def scanNumber (max : Option Nat) : Str → Except ParseError (Nat × Str)
  | [] => .error .tooShort
  | c :: s =>
    if Json.isDigit c then
      match digits max (c :: s) 0 with
      | some v => .ok v
      | none => .error .outOfRange
    else .error .invalid

/-- `Parsed::set_year`: an `i32`. -/
def setYear (y : Int) (r : Str) : Except ParseError Str :=
  if -2147483648 ≤ y ∧ y ≤ 2147483647 then .ok r else .error .outOfRange

/-- `Numeric::Year` after white space: at most 4 digits, or a sign and any number of digits. -/
def scanYear : Str → Except ParseError Str
  | '-' :: r => do let (n, r) ← scanNumber none r; setYear (-(n : Int)) r
  | '+' :: r => do let (n, r) ← scanNumber none r; setYear n r
  | r => do let (n, r) ← scanNumber (some 4) r; setYear n r

/-- `Fixed::Nanosecond`. -/
def scanFraction : Str → Except ParseError Str
  | '.' :: s => do let (_, r) ← scanNumber (some 9) s; pure (r.dropWhile Json.isDigit)
  | s => .ok s

/-- `scan::timezone_offset`, the closure `digits`: the next two octets, and what follows them. A single character
outside ASCII has two octets, neither a digit. -/
def twoOctets : Str → Except ParseError (Char × Char × Str)
  | [] => .error .tooShort
  | [c] => if c.toNat < 128 then .error .tooShort else .error .invalid
  | a :: b :: r => .ok (a, b, r)

/-- `scan::timezone_offset` with `colon_or_space`, after the sign. -/
def scanOffset (s : Str) : Except ParseError Str := do
  let (a, b, r) ← twoOctets s
  if Json.isDigit a ∧ Json.isDigit b then do
    let (a, b, r) ← twoOctets (r.dropWhile fun c => c == ':' || isWhitespace c)
    if 48 ≤ a.toNat ∧ a.toNat ≤ 53 ∧ Json.isDigit b then .ok r
    else if 54 ≤ a.toNat ∧ a.toNat ≤ 57 ∧ Json.isDigit b then .error .outOfRange
    else .error .invalid
  else .error .invalid

/-- `scan::timezone_offset_zulu`. -/
def scanZone : Str → Except ParseError Str
  | [] => .error .tooShort
  | c :: r =>
    if c = 'z' ∨ c = 'Z' then .ok r
    else if c = 'u' ∨ c = 'U' then
      match r with
      | t :: u :: r => if (t = 't' ∨ t = 'T') ∧ (u = 'c' ∨ u = 'C') then .ok r else .error .invalid
      | _ => .error .invalid
    else if c = '+' ∨ c = '-' then scanOffset r
    else .error .invalid

/-- `parse_internal`: one item, and what follows it. -/
def scanItem : Item → Str → Except ParseError Str
  | .space, s => .ok (trimStart s)
  | .literal _, [] => .error .tooShort
  | .literal c, d :: r => if d = c then .ok r else .error .invalid
  | .year, s => scanYear (trimStart s)
  | .two, s => do let (_, r) ← scanNumber (some 2) (trimStart s); pure r
  | .nanosecond, s => scanFraction s
  | .zone, s => scanZone s

/-- `parse_internal`: the items in turn. -/
def scanItems : List Item → Str → Except ParseError Str
  | [], s => .ok s
  | i :: is, s => do let r ← scanItem i s; scanItems is r

/-- `DATE_ITEMS`. -/
def dateItems : List Item :=
  [.year, .space, .literal '-', .two, .space, .literal '-', .two]

/-- `TIME_ITEMS`. -/
def timeItems : List Item :=
  [.two, .space, .literal ':', .two, .space, .literal ':', .two, .nanosecond, .space, .zone, .space]

/-- `FromStr for DateTime<FixedOffset>`: the error in the text, if there is one. What `Parsed::to_datetime` refuses is
out of range. -/
def parseError (s : Str) : Option ParseError :=
  match scanItems dateItems s with
  | .error e => some e
  | .ok [] => some .notEnough
  | .ok (c :: r) =>
    if c = 'T' ∨ c = ' ' then
      match scanItems timeItems r with
      | .error e => some e
      | .ok (_ :: _) => some .tooLong
      | .ok [] =>
        match readDateTime s with
        | .err () => some .outOfRange
        | _ => none
    else some .invalid

end Chrono

/-- The texts of other libraries with the messages of chrono. A text that is read has none, and the message for it is not
used, except for the one leap second that only `readDateTime` reads (see C108). -/
def withTimes (T : Reading.Texts) : Reading.Texts :=
  { T with time := fun s => ((Chrono.parseError s).map Chrono.ParseError.text).getD [] }

end Oid4vci
