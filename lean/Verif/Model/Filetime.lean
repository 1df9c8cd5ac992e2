/-
Model of the text of a FILETIME: /repo/src/hwp5/msoleprops.py:87-101, with what it uses of
Python's floating point numbers and of the module `datetime` (Python 3; CPython's
`Lib/_pydatetime.py`).
-/
import Verif.Model.XmlFormat
namespace Hwp

/-- The integer nearest to `a / b`; of two, the even one. -/
def roundEven (a b : Nat) : Nat :=
  let q := a / b
  let r := a % b
  if 2 * r < b then q
  else if b < 2 * r then q + 1
  else if q % 2 = 0 then q else q + 1

/-- msoleprops.py:96-101: `timedelta(microseconds=value / 10)`, in microseconds.  The
quotient is a floating point number: the nearest multiple of the power of two that leaves 53
significant bits.  `timedelta` then rounds it to a whole number of microseconds.  With
`e = log2 (16 * value / 10)` the quotient is at least `2 ^ (e - 4)` and less than
`2 ^ (e - 3)`. -/
def filetimeMicros (value : Nat) : Nat :=
  if value = 0 then 0
  else
    let e := Nat.log2 (16 * value / 10)
    if 56 ≤ e then roundEven value (10 * 2 ^ (e - 56)) * 2 ^ (e - 56)
    else roundEven (roundEven (value * 2 ^ (56 - e)) 10) (2 ^ (56 - e))

/-- `_DAYS_BEFORE_MONTH[month]` for the months 1 to 12. -/
def daysBeforeMonthTable : List Nat := [0, 31, 59, 90, 120, 151, 181, 212, 243, 273, 304, 334]

/-- `_DAYS_IN_MONTH[month]`. -/
def daysInMonthTable : List Nat := [31, 28, 31, 30, 31, 30, 31, 31, 30, 31, 30, 31]

/-- `_ord2ymd(n)`: year, month and day of a day number (day 1 is 0001-01-01). -/
def ord2ymd (n : Nat) : Nat × Nat × Nat :=
  let n := n - 1
  let n400 := n / 146097
  let n := n % 146097
  let n100 := n / 36524
  let n := n % 36524
  let n4 := n / 1461
  let n := n % 1461
  let n1 := n / 365
  let n := n % 365
  let year := n400 * 400 + 1 + n100 * 100 + n4 * 4 + n1
  if n1 = 4 ∨ n100 = 4 then (year - 1, 12, 31)
  else
    let leapyear : Bool := n1 = 3 ∧ (n4 ≠ 24 ∨ n100 = 3)
    let month := (n + 50) / 32
    let preceding := daysBeforeMonthTable.getD (month - 1) 0 + (if 2 < month ∧ leapyear then 1 else 0)
    if n < preceding then
      let month := month - 1
      let preceding := preceding - (daysInMonthTable.getD (month - 1) 0 + (if month = 2 ∧ leapyear then 1 else 0))
      (year, month, n - preceding + 1)
    else (year, month, n - preceding + 1)

/-- `'%0wd' % n`. -/
def zeroPad (w n : Nat) : PyStr := List.replicate (w - (natStr n).length) 0x30 ++ natStr n

/-- The day number of 1601-01-01. -/
def ordinal1601 : Nat := 584389
/-- `_MAXORDINAL`: the day number of 9999-12-31. -/
def maxOrdinal : Nat := 3652059

/-- `datetime.isoformat(sep=' ')`, which is `str`, of the time `us` microseconds after the
midnight at which day `n` begins. -/
def datetimeText (n us : Nat) : PyStr :=
  let (y, m, d) := ord2ymd n
  let s := us / 1000000
  zeroPad 4 y ++ lit "-" ++ zeroPad 2 m ++ lit "-" ++ zeroPad 2 d ++ lit " " ++
    zeroPad 2 (s / 3600) ++ lit ":" ++ zeroPad 2 (s / 60 % 60) ++ lit ":" ++ zeroPad 2 (s % 60) ++
    (if us % 1000000 = 0 then [] else lit "." ++ zeroPad 6 (us % 1000000))

/-- msoleprops.py:93-101 `FILETIME.__str__`.  A time after the year 9999 is an
`OverflowError`. -/
def filetimeText (value : Nat) : Except PyErr PyStr :=
  let us := filetimeMicros value
  let n := ordinal1601 + us / 86400000000
  if maxOrdinal < n then .error .overflowError
  else .ok (datetimeText n (us % 86400000000))

end Hwp
