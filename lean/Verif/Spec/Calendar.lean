import Verif.Core.Bits

/-! # The Gregorian calendar (UTC, without leap seconds) -/

namespace Mp4

/-- A calendar date and a time of day. -/
structure DateTime where
  year : Int
  month : Nat
  day : Nat
  hour : Nat
  minute : Nat
  second : Nat
  deriving DecidableEq, Repr

namespace Spec

/-- The leap year rule. -/
def leap (y : Int) : Bool := (y % 4 == 0 && y % 100 != 0) || y % 400 == 0

/-- Length of a month (1 is January). -/
def monthLength (y : Int) (m : Nat) : Nat :=
  match m with
  | 2 => if leap y then 29 else 28
  | 4 | 6 | 9 | 11 => 30
  | _ => 31

/-- Length of a year. -/
def yearLength (y : Int) : Int := if leap y then 366 else 365

/-- Days of the year in front of month `m`. -/
def daysBeforeMonth (y : Int) : Nat → Nat
  | 0 => 0
  | 1 => 0
  | m + 2 => daysBeforeMonth y (m + 1) + monthLength y (m + 1)

/-- Days from the first of January 1970 to the first of January of year `y` (negative for earlier years): 365 for every year, and one
for every leap year in between. `C51_days_before_year` shows that this counts the lengths of the years. -/
def daysBeforeYear (y : Int) : Int := 365 * (y - 1970) + ((y - 1) / 4 - (y - 1) / 100 + (y - 1) / 400 - 477)

/-- The date exists. -/
def validDate (d : DateTime) : Prop :=
  1 ≤ d.month ∧ d.month ≤ 12 ∧ 1 ≤ d.day ∧ d.day ≤ monthLength d.year d.month ∧ d.hour < 24 ∧ d.minute < 60 ∧ d.second < 60

/-- Seconds from 1970-01-01T00:00:00Z to the date. -/
def secondsSince1970 (d : DateTime) : Int :=
  (daysBeforeYear d.year + daysBeforeMonth d.year d.month + (d.day - 1 : Nat)) * 86400 +
    d.hour * 3600 + d.minute * 60 + d.second

/-- The last decimal digit of a number, as a character. -/
def digitChar (n : Nat) : Byte := BitVec.ofNat 8 (0x30 + n % 10)

/-- A number below 100 in two digits. -/
def twoDigits (n : Nat) : List Byte := [digitChar (n / 10), digitChar n]

/-- A date of the years 0 to 9999 in the form YYYY-MM-DDThh:mm:ssZ (ISO 8601). -/
def iso8601 (d : DateTime) : List Byte :=
  twoDigits (d.year.toNat / 100) ++ twoDigits d.year.toNat ++ [0x2d#8] ++ twoDigits d.month ++ [0x2d#8] ++ twoDigits d.day ++ [0x54#8] ++
    twoDigits d.hour ++ [0x3a#8] ++ twoDigits d.minute ++ [0x3a#8] ++ twoDigits d.second ++ [0x5a#8]

/-- The first of January 1904, where the times in the files begin. -/
def epoch1904 : DateTime := ⟨1904, 1, 1, 0, 0, 0⟩

/-- The first moment of a year. -/
def newYear (y : Int) : DateTime := ⟨y, 1, 1, 0, 0, 0⟩

end Spec
end Mp4
