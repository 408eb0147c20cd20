import Verif.Base.Json
import Verif.Model.Ext

/-!
`DateTime<Utc>` in JSON, as jwt/mod.rs:516-537 uses it for `iat`, `nbf` and `exp`: a concrete
description of the text format of chrono 0.4.24 (the version in Cargo.lock). chrono is not part of
the repository; this module instantiates the fields `showTime`, `dispTime` and `parseTime` of `Ext`,
over which the theorems quantify. Leap-second representations are not modelled (see `Time`): second 60 denotes
the first instant of the next minute.
-/

namespace Oid4vci
namespace Chrono

/-- `NaiveDate`. -/
structure Date where
  year : Int
  month : Nat
  day : Nat
deriving DecidableEq, Repr

/-- Leap years of the proleptic Gregorian calendar (`YearFlags`). -/
def isLeap (y : Int) : Bool := decide (y % 4 = 0) && (decide (y % 100 ≠ 0) || decide (y % 400 = 0))

/-- The lengths of the months. -/
def monthLengths (leap : Bool) : List Nat :=
  [31, if leap then 29 else 28, 31, 30, 31, 30, 31, 31, 30, 31, 30, 31]

/-- Month and day from the zero-based day of the year (chrono's table `OL_TO_MDL`). -/
def monthDay : List Nat → (month ordinal0 : Nat) → Nat × Nat
  | [], m, o => (m, o + 1)
  | l :: ls, m, o => if o < l then (m, o + 1) else monthDay ls (m + 1) (o - l)

/-- The number of leap days before the year `y` of the 400-year cycle (chrono's table
`YEAR_DELTAS`). -/
def yearDelta (y : Int) : Int := (y + 3) / 4 - (y + 99) / 100 + (y + 399) / 400

/-- `internals::cycle_to_yo`: the year of the cycle and the zero-based day of the year. -/
def cycleToYo (c : Int) : Int × Int :=
  let y := c / 365
  let o := c % 365
  if o < yearDelta y then (y - 1, o + 365 - yearDelta (y - 1)) else (y, o - yearDelta y)

/-- `NaiveDate::from_num_days_from_ce_opt`; the day 0001-01-01 has number 1. -/
def fromDaysFromCe (n : Int) : Date :=
  let d := n + 365
  let (y, o) := cycleToYo (d % 146097)
  let year := d / 146097 * 400 + y
  let (month, day) := monthDay (monthLengths (isLeap year)) 1 o.toNat
  ⟨year, month, day⟩

/-- The day of the year, from 1. -/
def ordinal (x : Date) : Nat := ((monthLengths (isLeap x.year)).take (x.month - 1)).sum + x.day

/-- `NaiveDate::num_days_from_ce`. (chrono shifts negative years by multiples of 400 before dividing;
here division rounds down.) -/
def numDaysFromCe (x : Date) : Int :=
  let y := x.year - 1
  y * 1461 / 4 - y / 100 + y / 100 / 4 + ordinal x

/-- The day number of 1970-01-01. -/
def epochDay : Int := 719163

/-- `NaiveDate::from_ymd_opt` succeeds. -/
def validDate (x : Date) : Bool :=
  decide (-262144 ≤ x.year) && decide (x.year ≤ 262143) && decide (1 ≤ x.month) &&
    decide (1 ≤ x.day) &&
    match (monthLengths (isLeap x.year))[x.month - 1]? with
    | some l => decide (x.day ≤ l)
    | none => false

/-! ### Writing -/

/-- A decimal digit. -/
def digit (n : Nat) : Char := Char.ofNat (48 + n % 10)

/-- Exactly `w` decimal digits of `n`. -/
def fixed : (w n : Nat) → Str
  | 0, _ => []
  | w + 1, n => fixed w (n / 10) ++ [digit n]

/-- `{:04}` of a year from 0 to 9999, `{:+05}` of any other. -/
def showYear (y : Int) : Str :=
  if 0 ≤ y ∧ y ≤ 9999 then fixed 4 y.toNat
  else (if y < 0 then '-' else '+') ::
    (if y.natAbs < 10000 then fixed 4 y.natAbs else Json.natDigits y.natAbs)

/-- The fraction of a second in `NaiveTime: Debug`: nothing, or 3, 6 or 9 digits. -/
def showFraction (ns : Nat) : Str :=
  if ns = 0 then []
  else if ns % 1000000 = 0 then '.' :: fixed 3 (ns / 1000000)
  else if ns % 1000 = 0 then '.' :: fixed 6 (ns / 1000)
  else '.' :: fixed 9 ns

/-- `DateTime<Utc>: Serialize`. -/
def showTime (t : Time) : Str :=
  let secs := t / 1000000000
  let ns := (t % 1000000000).toNat
  let sod := (secs % 86400).toNat
  let x := fromDaysFromCe (secs / 86400 + epochDay)
  showYear x.year ++ '-' :: (fixed 2 x.month ++ '-' :: (fixed 2 x.day ++ 'T' ::
    (fixed 2 (sod / 3600) ++ ':' :: (fixed 2 (sod / 60 % 60) ++ ':' ::
      (fixed 2 (sod % 60) ++ (showFraction ns ++ ['Z']))))))

/-- `DateTime<Utc>: Display`: date, time and zone with a space between them. -/
def dispTime (t : Time) : Str :=
  let secs := t / 1000000000
  let ns := (t % 1000000000).toNat
  let sod := (secs % 86400).toNat
  let x := fromDaysFromCe (secs / 86400 + epochDay)
  showYear x.year ++ '-' :: (fixed 2 x.month ++ '-' :: (fixed 2 x.day ++ ' ' ::
    (fixed 2 (sod / 3600) ++ ':' :: (fixed 2 (sod / 60 % 60) ++ ':' ::
      (fixed 2 (sod % 60) ++ (showFraction ns ++ str! " UTC"))))))

/-! ### Reading -/

/-- Rust's `char::is_whitespace` (the Unicode property White_Space). -/
def isWhitespace (c : Char) : Bool :=
  let n := c.toNat
  (9 ≤ n && n ≤ 13) || n == 32 || n == 0x85 || n == 0xA0 || n == 0x1680 ||
    (0x2000 ≤ n && n ≤ 0x200A) || n == 0x2028 || n == 0x2029 || n == 0x202F || n == 0x205F ||
    n == 0x3000

/-- `str::trim_start`. -/
def trimStart (s : Str) : Str := s.dropWhile isWhitespace

/-- The digits at the front of `s`, at most `max` of them, appended to the value `acc`; `none` when
the value exceeds `i64`. -/
def digits : (max : Option Nat) → Str → (acc : Nat) → Option (Nat × Str)
  | some 0, s, acc => some (acc, s)
  | _, [], acc => some (acc, [])
  | max, c :: s, acc =>
    if Json.isDigit c then
      let acc' := acc * 10 + (c.toNat - 48)
      if acc' < 2 ^ 63 then digits (max.map (· - 1)) s acc' else none
    else some (acc, c :: s)

/-- `scan::number` with at least one digit and at most `max`. -/
def number (max : Option Nat) : Str → Option (Nat × Str)
  | [] => none
  | c :: s => if Json.isDigit c then digits max (c :: s) 0 else none

/-- `Item::Numeric` without sign: white space, then one or two digits. -/
def numeric2 (s : Str) : Option (Nat × Str) := number (some 2) (trimStart s)

/-- `Numeric::Year`: white space, then at most 4 digits, or a sign and any number of digits. -/
def numericYear (s : Str) : Option (Int × Str) :=
  match trimStart s with
  | '-' :: r => (number none r).map fun (n, r) => (-(n : Int), r)
  | '+' :: r => (number none r).map fun (n, r) => ((n : Int), r)
  | r => (number (some 4) r).map fun (n, r) => ((n : Int), r)

/-- `Item::Space("")` and a literal character. -/
def separator (c : Char) (s : Str) : Option Str :=
  match trimStart s with
  | d :: r => if d = c then some r else none
  | [] => none

/-- `Fixed::Nanosecond`. -/
def nanosecond : Str → Option (Nat × Str)
  | '.' :: s =>
    match number (some 9) s with
    | some (n, r) =>
      some (n * 10 ^ (9 - (s.length - r.length)), r.dropWhile Json.isDigit)
    | none => none
  | s => some (0, s)

/-- The two-digit minutes of an offset, after the optional colon. -/
def offsetMinutes : Str → Option (Nat × Str)
  | a :: b :: r =>
    if 48 ≤ a.toNat ∧ a.toNat ≤ 53 ∧ Json.isDigit b then
      some ((a.toNat - 48) * 10 + (b.toNat - 48), r)
    else none
  | _ => none

/-- `scan::timezone_offset` with `colon_or_space`, in seconds. -/
def offset : Str → Option (Int × Str)
  | sign :: a :: b :: r =>
    if (sign = '+' ∨ sign = '-') ∧ Json.isDigit a ∧ Json.isDigit b then
      match offsetMinutes (r.dropWhile fun c => c == ':' || isWhitespace c) with
      | some (m, r) =>
        let secs : Int := ((a.toNat - 48) * 10 + (b.toNat - 48)) * 3600 + m * 60
        some (if sign = '-' then -secs else secs, r)
      | none => none
    else none
  | _ => none

/-- `scan::timezone_offset_zulu`. -/
def zulu (s : Str) : Option (Int × Str) :=
  match s with
  | c :: r =>
    if c = 'z' ∨ c = 'Z' then some (0, r)
    else if c = 'u' ∨ c = 'U' then
      match r with
      | t :: u :: r => if (t = 't' ∨ t = 'T') ∧ (u = 'c' ∨ u = 'C') then some (0, r) else none
      | _ => none
    else offset s
  | [] => none

/-- The date items of `FromStr for DateTime<FixedOffset>`. -/
def parseDate (s : Str) : Option (Date × Str) := do
  let (y, s) ← numericYear s
  let s ← separator '-' s
  let (m, s) ← numeric2 s
  let s ← separator '-' s
  let (d, s) ← numeric2 s
  some (⟨y, m, d⟩, s)

/-- The time items: second of the day, nanosecond, offset in seconds. -/
def parseClock (s : Str) : Option (Nat × Nat × Int × Str) := do
  let (h, s) ← numeric2 s
  let s ← separator ':' s
  let (mi, s) ← numeric2 s
  let s ← separator ':' s
  let (sec, s) ← numeric2 s
  let (ns, s) ← nanosecond s
  let (off, s) ← zulu (trimStart s)
  if h ≤ 23 ∧ mi ≤ 59 ∧ sec ≤ 60 ∧ -86400 < off ∧ off < 86400 then
    some (h * 3600 + mi * 60 + sec, ns, off, trimStart s)
  else none

/-- `DateTime<Utc>: Deserialize` from a string: `FromStr for DateTime<FixedOffset>`, then conversion
to UTC. (Where the conversion leaves chrono's range, which may panic there, the model says `none`.) -/
def parseTime (s : Str) : Option Time := do
  let (x, s) ← parseDate s
  match s with
  | c :: s =>
    if c = 'T' ∨ c = ' ' then do
      let (sod, ns, off, rest) ← parseClock s
      let t : Time := ((numDaysFromCe x - epochDay) * 86400 + sod - off) * 1000000000 + ns
      if rest = [] ∧ validDate x ∧ Time.Valid t then some t else none
    else none
  | [] => none

end Chrono
end Oid4vci
