import Verif.Spec.Calendar

/-!
Date-time texts: the format of RFC 3339, and the wider one which the date-time library reads.
-/

namespace Oid4vci.Spec
open Chrono (Date)

/-- A character of Unicode's White_Space property. -/
def WhiteSpace (c : Char) : Prop :=
  c.toNat ∈ [0x20, 0x85, 0xA0, 0x1680, 0x2028, 0x2029, 0x202F, 0x205F, 0x3000] ∨
  (0x09 ≤ c.toNat ∧ c.toNat ≤ 0x0D) ∨ (0x2000 ≤ c.toNat ∧ c.toNat ≤ 0x200A)

/-- White space or nothing. -/
def Blank (w : Str) : Prop := ∀ c ∈ w, WhiteSpace c

/-- One or more decimal digits. -/
def IsDigits (ds : Str) : Prop := ds ≠ [] ∧ ∀ c ∈ ds, c ∈ ['0', '1', '2', '3', '4', '5', '6', '7', '8', '9']

/-- The number they denote. -/
def decimal (ds : Str) : Nat := ds.foldl (fun n c => 10 * n + (c.toNat - '0'.toNat)) 0

/-- One to `k` digits for `n`. -/
def Digits (k : Nat) (ds : Str) (n : Nat) : Prop := IsDigits ds ∧ ds.length ≤ k ∧ n = decimal ds

/-- The day number of a date, counted from 1970-01-01. -/
def DayNumber (x : Date) (n : Int) : Prop := ∃ f, NumbersDays f ∧ f n = x

/-- The instant of a local time with an offset from UTC, in nanoseconds. -/
def instantOf (day : Int) (h mi s ns : Nat) (offset : Int) : Time :=
  (day * 86400 + (h * 3600 + mi * 60 + s : Nat) - offset) * 1000000000 + ns

/-- Nanoseconds of the digits of a fraction: the tenth and later digits are dropped. -/
def nanos (ds : Str) : Nat := decimal (ds.take 9) * 10 ^ (9 - (ds.take 9).length)

/-! ### RFC 3339 -/

/-- The `time-offset` of RFC 3339 and the seconds it denotes. -/
inductive Rfc3339Offset : Str → Int → Prop
  | utc : Rfc3339Offset ['Z'] 0
  | east (h m : Str) : IsDigits h → IsDigits m → h.length = 2 → m.length = 2 → decimal h ≤ 23 →
      decimal m ≤ 59 → Rfc3339Offset ('+' :: (h ++ ':' :: m)) ((decimal h * 3600 + decimal m * 60 : Nat))
  | west (h m : Str) : IsDigits h → IsDigits m → h.length = 2 → m.length = 2 → decimal h ≤ 23 →
      decimal m ≤ 59 → Rfc3339Offset ('-' :: (h ++ ':' :: m)) (-(decimal h * 3600 + decimal m * 60 : Nat))

/-- The `time-secfrac` of RFC 3339 and the nanoseconds it denotes. -/
inductive Rfc3339Fraction : Str → Nat → Prop
  | none : Rfc3339Fraction [] 0
  | some (ds : Str) : IsDigits ds → Rfc3339Fraction ('.' :: ds) (nanos ds)

/-- The `date-time` of RFC 3339 (with `T` and `Z` in upper case) and the instant it denotes. -/
def Rfc3339 (s : Str) (t : Time) : Prop :=
  ∃ (y mo d h mi sec frac zone : Str) (ns : Nat) (off day : Int),
    s = y ++ '-' :: (mo ++ '-' :: (d ++ 'T' :: (h ++ ':' :: (mi ++ ':' :: (sec ++ (frac ++ zone)))))) ∧
    IsDigits y ∧ IsDigits mo ∧ IsDigits d ∧ IsDigits h ∧ IsDigits mi ∧ IsDigits sec ∧
    y.length = 4 ∧ mo.length = 2 ∧ d.length = 2 ∧ h.length = 2 ∧ mi.length = 2 ∧ sec.length = 2 ∧
    decimal h ≤ 23 ∧ decimal mi ≤ 59 ∧ decimal sec ≤ 60 ∧
    Rfc3339Fraction frac ns ∧ Rfc3339Offset zone off ∧
    DayNumber ⟨decimal y, decimal mo, decimal d⟩ day ∧
    t = instantOf day (decimal h) (decimal mi) (decimal sec) ns off

/-! ### The wider format -/

/-- Years: up to four digits, or a sign and digits. -/
inductive YearText : Str → Int → Prop
  | plain (ds : Str) : IsDigits ds → ds.length ≤ 4 → YearText ds (decimal ds)
  | plus (ds : Str) : IsDigits ds → YearText ('+' :: ds) (decimal ds)
  | minus (ds : Str) : IsDigits ds → YearText ('-' :: ds) (-(decimal ds : Int))

/-- Offsets: `Z`, `UTC` in any case, or hours and minutes with colons or white space between them. -/
inductive Zone : Str → Int → Prop
  | zulu (c : Char) : c ∈ ['z', 'Z'] → Zone [c] 0
  | utc (u t c : Char) : u ∈ ['u', 'U'] → t ∈ ['t', 'T'] → c ∈ ['c', 'C'] → Zone [u, t, c] 0
  | east (h gap m : Str) : IsDigits h → IsDigits m → h.length = 2 → m.length = 2 → decimal m ≤ 59 →
      (∀ c ∈ gap, c = ':' ∨ WhiteSpace c) →
      Zone ('+' :: (h ++ (gap ++ m))) ((decimal h * 3600 + decimal m * 60 : Nat))
  | west (h gap m : Str) : IsDigits h → IsDigits m → h.length = 2 → m.length = 2 → decimal m ≤ 59 →
      (∀ c ∈ gap, c = ':' ∨ WhiteSpace c) →
      Zone ('-' :: (h ++ (gap ++ m))) (-(decimal h * 3600 + decimal m * 60 : Nat))

/-- A date, with white space before the numbers and dashes. -/
def DateText (s : Str) (x : Date) : Prop :=
  ∃ w0 w1 w2 w3 w4 y mo d : Str, Blank w0 ∧ Blank w1 ∧ Blank w2 ∧ Blank w3 ∧ Blank w4 ∧
    YearText y x.year ∧ Digits 2 mo x.month ∧ Digits 2 d x.day ∧
    s = w0 ++ (y ++ (w1 ++ '-' :: (w2 ++ (mo ++ (w3 ++ '-' :: (w4 ++ d))))))

/-- A time with fraction and offset, with white space before the numbers and colons, before the offset
and at the end. -/
def ClockText (s : Str) (h mi sec ns : Nat) (off : Int) : Prop :=
  ∃ w0 w1 w2 w3 w4 w5 w6 hs mis ss frac zone : Str, Blank w0 ∧ Blank w1 ∧ Blank w2 ∧ Blank w3 ∧
    Blank w4 ∧ Blank w5 ∧ Blank w6 ∧ Digits 2 hs h ∧ Digits 2 mis mi ∧ Digits 2 ss sec ∧
    Rfc3339Fraction frac ns ∧ Zone zone off ∧
    s = w0 ++ (hs ++ (w1 ++ ':' :: (w2 ++ (mis ++ (w3 ++ ':' :: (w4 ++ (ss ++ (frac ++ (w5 ++ (zone ++ w6))))))))))

/-- A date-time text and the instant it denotes: years and instants in the library's range, times of the
24-hour clock with second 60 allowed, offsets of less than a day. -/
def InstantText (s : Str) (t : Time) : Prop :=
  ∃ (date clock : Str) (sep : Char) (x : Date) (h mi sec ns : Nat) (off day : Int),
    s = date ++ sep :: clock ∧ DateText date x ∧ sep ∈ ['T', ' '] ∧ ClockText clock h mi sec ns off ∧
    h ≤ 23 ∧ mi ≤ 59 ∧ sec ≤ 60 ∧ -86400 < off ∧ off < 86400 ∧
    IsDate x ∧ -262144 ≤ x.year ∧ x.year ≤ 262143 ∧ DayNumber x day ∧
    t = instantOf day h mi sec ns off ∧ Time.Valid t

end Oid4vci.Spec
