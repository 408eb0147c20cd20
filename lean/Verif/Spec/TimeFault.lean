import Verif.Spec.Leap

/-! What is wrong with a text that is not a date-time. -/

namespace Oid4vci.Spec

/-- The parts of a date-time text. -/
inductive Part
  | blank | mark (c : Char) | year | number | fraction | zone

/-- A date. -/
def dateParts : List Part :=
  [.blank, .year, .blank, .mark '-', .blank, .number, .blank, .mark '-', .blank, .number]

/-- A time with an offset. -/
def clockParts : List Part :=
  [.blank, .number, .blank, .mark ':', .blank, .number, .blank, .mark ':', .blank, .number, .fraction, .blank, .zone,
    .blank]

/-- The text of a part. -/
inductive PartText : Part → Str → Prop
  | blank (w : Str) : Blank w → PartText .blank w
  | mark (c : Char) : PartText (.mark c) [c]
  | year (s : Str) (y : Int) : YearText s y → -2 ^ 31 ≤ y → y < 2 ^ 31 → PartText .year s
  | number (s : Str) (n : Nat) : Digits 2 s n → PartText .number s
  | fraction (s : Str) (n : Nat) : Rfc3339Fraction s n → PartText .fraction s
  | zone (s : Str) (off : Int) : Zone s off → PartText .zone s

/-- A part ends where it cannot be continued: blanks before something else, digits before something else or after the
last one that is admitted. -/
def Ended : Part → Str → Str → Prop
  | .blank, _, r => ∀ c ∈ r.head?, ¬ WhiteSpace c
  | .year, s, r => (∃ c ∈ r.head?, IsDigits [c]) → IsDigits s ∧ s.length = 4
  | .number, s, r => (∃ c ∈ r.head?, IsDigits [c]) → s.length = 2
  | .fraction, s, r => (s = [] → r.head? ≠ some '.') ∧ (s ≠ [] → ∀ c ∈ r.head?, ¬ IsDigits [c])
  | _, _, _ => True

/-- The parts stand at the beginning of a text; the rest follows. -/
inductive Begins : List Part → Str → Str → Prop
  | nil (r : Str) : Begins [] r r
  | cons (p : Part) (ps : List Part) (s t r : Str) : PartText p s → Ended p s t → Begins ps t r →
      Begins (p :: ps) (s ++ t) r

/-- A text of less than two octets. -/
def Short (s : Str) : Prop := (utf8Encode s).length < 2

/-- The text begins with two digits. -/
def TwoDigits (s : Str) : Prop := ∃ a r, s = a ++ r ∧ IsDigits a ∧ a.length = 2

/-- What is wrong where a part is due. -/
inductive PartFault : Part → Str → Str → Prop
  | markEnd (c : Char) : PartFault (.mark c) [] (str! "premature end of input")
  | markOther (c d : Char) (r : Str) : d ≠ c → PartFault (.mark c) (d :: r) (str! "input contains invalid characters")
  | numberEnd : PartFault .number [] (str! "premature end of input")
  | numberOther (c : Char) (r : Str) : ¬ IsDigits [c] →
      PartFault .number (c :: r) (str! "input contains invalid characters")
  | yearEnd : PartFault .year [] (str! "premature end of input")
  | yearSignEnd (c : Char) : c ∈ ['+', '-'] → PartFault .year [c] (str! "premature end of input")
  | yearSignOther (c d : Char) (r : Str) : c ∈ ['+', '-'] → ¬ IsDigits [d] →
      PartFault .year (c :: d :: r) (str! "input contains invalid characters")
  | yearOther (c : Char) (r : Str) : c ∉ ['+', '-'] → ¬ IsDigits [c] →
      PartFault .year (c :: r) (str! "input contains invalid characters")
  | yearRange (s r : Str) (y : Int) : YearText s y → (∀ c ∈ r.head?, ¬ IsDigits [c]) → y < -2 ^ 31 ∨ 2 ^ 31 ≤ y →
      PartFault .year (s ++ r) (str! "input is out of range")
  | fractionEnd : PartFault .fraction ['.'] (str! "premature end of input")
  | fractionOther (c : Char) (r : Str) : ¬ IsDigits [c] →
      PartFault .fraction ('.' :: c :: r) (str! "input contains invalid characters")
  | zoneEnd : PartFault .zone [] (str! "premature end of input")
  | zoneOther (c : Char) (r : Str) : c ∉ ['z', 'Z', 'u', 'U', '+', '-'] →
      PartFault .zone (c :: r) (str! "input contains invalid characters")
  | zoneUtc (c : Char) (r : Str) : c ∈ ['u', 'U'] → (∀ s r', c :: r = s ++ r' → ¬ Zone s 0) →
      PartFault .zone (c :: r) (str! "input contains invalid characters")
  | hoursEnd (c : Char) (r : Str) : c ∈ ['+', '-'] → Short r → PartFault .zone (c :: r) (str! "premature end of input")
  | hoursOther (c : Char) (r : Str) : c ∈ ['+', '-'] → ¬ Short r → ¬ TwoDigits r →
      PartFault .zone (c :: r) (str! "input contains invalid characters")
  | minutesEnd (c : Char) (h gap r : Str) : c ∈ ['+', '-'] → IsDigits h → h.length = 2 →
      (∀ d ∈ gap, d = ':' ∨ WhiteSpace d) → (∀ d ∈ r.head?, ¬ (d = ':' ∨ WhiteSpace d)) → Short r →
      PartFault .zone (c :: (h ++ (gap ++ r))) (str! "premature end of input")
  | minutesOther (c : Char) (h gap r : Str) : c ∈ ['+', '-'] → IsDigits h → h.length = 2 →
      (∀ d ∈ gap, d = ':' ∨ WhiteSpace d) → (∀ d ∈ r.head?, ¬ (d = ':' ∨ WhiteSpace d)) → ¬ Short r → ¬ TwoDigits r →
      PartFault .zone (c :: (h ++ (gap ++ r))) (str! "input contains invalid characters")
  | minutesRange (c : Char) (h gap m r : Str) : c ∈ ['+', '-'] → IsDigits h → h.length = 2 →
      (∀ d ∈ gap, d = ':' ∨ WhiteSpace d) → IsDigits m → m.length = 2 → 59 < decimal m →
      PartFault .zone (c :: (h ++ (gap ++ (m ++ r)))) (str! "input is out of range")

/-- What is wrong with a text: the first part that is not there, or else what is missing after the date, stands between
date and time, or follows the time; or else that no moment is denoted. (There are texts with nothing wrong that are not
read, see C108.) -/
inductive TimeFault : Str → Str → Prop
  | date (before after : List Part) (p : Part) (s r m : Str) : dateParts = before ++ p :: after → Begins before s r →
      PartFault p r m → TimeFault s m
  | dateOnly (s : Str) : Begins dateParts s [] → TimeFault s (str! "input is not enough for unique date and time")
  | between (s : Str) (c : Char) (r : Str) : Begins dateParts s (c :: r) → c ∉ ['T', ' '] →
      TimeFault s (str! "input contains invalid characters")
  | clock (before after : List Part) (p : Part) (s : Str) (c : Char) (r r' m : Str) : Begins dateParts s (c :: r) →
      c ∈ ['T', ' '] → clockParts = before ++ p :: after → Begins before r r' → PartFault p r' m → TimeFault s m
  | trailing (s : Str) (c : Char) (r r' : Str) : Begins dateParts s (c :: r) → c ∈ ['T', ' '] → Begins clockParts r r' →
      r' ≠ [] → TimeFault s (str! "trailing input")
  | range (s : Str) (c : Char) (r : Str) : Begins dateParts s (c :: r) → c ∈ ['T', ' '] → Begins clockParts r [] →
      (∀ m, ¬ MomentText s m) → ¬ BeforeTheBeginning s → TimeFault s (str! "input is out of range")

end Oid4vci.Spec
