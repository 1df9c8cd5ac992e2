/-
Specification of dates: the Gregorian calendar by the lengths of its years and months, and
how a time is written.
-/
import Verif.Model.Utf16
namespace Hwp.Spec

/-- Leap years. -/
def leap (y : Nat) : Bool := y % 4 = 0 ∧ (y % 100 ≠ 0 ∨ y % 400 = 0)

/-- The number of days of a year. -/
def yearDays (y : Nat) : Nat := if leap y then 366 else 365

/-- The number of days of a month. -/
def monthDays (y m : Nat) : Nat :=
  if m = 2 then (if leap y then 29 else 28)
  else if m = 4 ∨ m = 6 ∨ m = 9 ∨ m = 11 then 30
  else 31

/-- The days of the years 1 to `y`. -/
def daysOfYears : Nat → Nat
  | 0 => 0
  | y + 1 => daysOfYears y + yearDays (y + 1)

/-- The days of the first `m` months of a year. -/
def daysOfMonths (y : Nat) : Nat → Nat
  | 0 => 0
  | m + 1 => daysOfMonths y m + monthDays y (m + 1)

/-- A date and a time of day. -/
structure Moment where
  year : Nat
  month : Nat
  day : Nat
  hour : Nat
  minute : Nat
  second : Nat
  microsecond : Nat
  deriving DecidableEq, Repr

/-- The date exists, in the years 1601 to 9999, and so does the time. -/
structure Moment.Valid (t : Moment) : Prop where
  year : 1601 ≤ t.year ∧ t.year ≤ 9999
  month : 1 ≤ t.month ∧ t.month ≤ 12
  day : 1 ≤ t.day ∧ t.day ≤ monthDays t.year t.month
  hour : t.hour < 24
  minute : t.minute < 60
  second : t.second < 60
  microsecond : t.microsecond < 1000000

/-- The number of whole days from the beginning of year 1 to the date. -/
def Moment.days (t : Moment) : Nat := daysOfYears (t.year - 1) + daysOfMonths t.year (t.month - 1) + (t.day - 1)

/-- Microseconds since 1601-01-01 00:00. -/
def Moment.micros (t : Moment) : Nat :=
  ((((t.days - daysOfYears 1600) * 24 + t.hour) * 60 + t.minute) * 60 + t.second) * 1000000 + t.microsecond

/-- Units of 100 ns in the years 1601 to 9999. -/
def fileTimeEnd : Nat := (daysOfYears 9999 - daysOfYears 1600) * (24 * 60 * 60 * 10000000)

/-- `w` decimal digits. -/
def digits : Nat → Nat → PyStr
  | 0, _ => []
  | w + 1, n => digits w (n / 10) ++ [0x30 + n % 10]

/-- `YYYY-MM-DD hh:mm:ss`, with a fraction of six digits if there is one. -/
def Moment.text (t : Moment) : PyStr :=
  digits 4 t.year ++ [0x2D] ++ digits 2 t.month ++ [0x2D] ++ digits 2 t.day ++ [0x20] ++
    digits 2 t.hour ++ [0x3A] ++ digits 2 t.minute ++ [0x3A] ++ digits 2 t.second ++
    (if t.microsecond = 0 then [] else 0x2E :: digits 6 t.microsecond)

end Hwp.Spec
