import Verif.Model.Dates
/-!
# Dates and times in compiled programs

`read_datetimeexpr`, `read_datetime`, `read_date`, fxp_read.py:142-160, which print the dates and times in the code of
compiled programs.

The value in the file is a floating point number of days.  `timedelta(days - 2440588)` rounds it to microseconds; that number of
microseconds since the beginning of 1970 is where the model starts.  `total_seconds()` is taken as exact.  The calendar of
Python's `datetime` is modelled as in its reference implementation (`_ord2ymd` of `datetime.py`).
-/
namespace Model.FxpDates
open Model.Dates

/-- `_DAYS_BEFORE_MONTH`. Part of Python's `datetime`, called by fxp_read.py:142-160 -/
def daysBefore : Nat → Nat
  | 2 => 31 | 3 => 59 | 4 => 90 | 5 => 120 | 6 => 151 | 7 => 181 | 8 => 212 | 9 => 243 | 10 => 273 | 11 => 304 | 12 => 334
  | _ => 0

/-- `_DAYS_IN_MONTH`. Part of Python's `datetime`, called by fxp_read.py:142-160 -/
def daysInMonth : Nat → Nat
  | 2 => 28 | 4 => 30 | 6 => 30 | 9 => 30 | 11 => 30
  | _ => 31

/-- The end of `_ord2ymd`: month and day from the number of days since the beginning of the year.
Part of Python's `datetime`, called by fxp_read.py:142-160 -/
def monthDay (leap : Bool) (n : Nat) : Nat × Nat :=
  let month := (n + 50) / 32
  let preceding := daysBefore month + (if month > 2 ∧ leap = true then 1 else 0)
  if preceding > n then
    let month := month - 1
    let preceding := preceding - (daysInMonth month + (if month = 2 ∧ leap = true then 1 else 0))
    (month, n - preceding + 1)
  else (month, n - preceding + 1)

/-- `_ord2ymd`: day 1 is 1 January of the year 1. Part of Python's `datetime`, called by fxp_read.py:142-160 -/
def ord2ymd (n : Nat) : Date :=
  let n := n - 1
  let n400 := n / 146097
  let n := n % 146097
  let n100 := n / 36524
  let n := n % 36524
  let n4 := n / 1461
  let n := n % 1461
  let n1 := n / 365
  let n := n % 365
  let year := n400 * 400 + 1 + n100 * 100 + n4 * 4 + n1
  if n1 = 4 ∨ n100 = 4 then ⟨year - 1, 12, 31⟩
  else
    let md := monthDay (n1 = 3 ∧ (n4 ≠ 24 ∨ n100 = 3)) n
    ⟨year, md.1, md.2⟩

/-- `round` of a number of seconds given in microseconds: to the nearest, the even one of two. fxp_read.py:142-148 -/
def roundSeconds (m : Int) : Int :=
  let q := m / 1000000
  let r := m % 1000000
  if r < 500000 then q
  else if r > 500000 then q + 1
  else if q % 2 = 0 then q else q + 1

/-- `datetime.utcfromtimestamp(0) + timedelta(seconds=s)`; there are dates from 1 January 1 to 31 December 9999. -/
def fromEpoch (s : Int) : Option Moment :=
  let day := 719163 + s / 86400
  if 1 ≤ day ∧ day ≤ 3652059 then
    let t := (s % 86400).toNat
    some ⟨ord2ymd day.toNat, some ⟨t / 3600, t / 60 % 60, t % 60⟩⟩
  else none

/-- A value in the file: 0, or the microseconds since the beginning of 1970. -/
inductive Stored where
  | zero
  | micro (m : Int)
  deriving DecidableEq, Repr

/-- `str(date)`. fxp_read.py:156-160 -/
def dateText (d : Date) : Str := digits 4 d.year ++ '-' :: digits 2 d.month ++ '-' :: digits 2 d.day

/-- `str(datetime)` without microseconds. fxp_read.py:150-154 -/
def timeText (t : Time) : Str := digits 2 t.hour ++ ':' :: digits 2 t.minute ++ ':' :: digits 2 t.second

/-- The braces and the `^` around a date. fxp_read.py:150-160 -/
def braces (s : Str) : Str := '{' :: '^' :: s ++ ['}']

/-- `'{ / / }'`. fxp_read.py:150-160 -/
def empty : Str := ['{', ' ', '/', ' ', '/', ' ', '}']

/-- `read_date`, fxp_read.py:156-160; `none`: an exception. -/
def readDate : Stored → Option Str
  | .zero => some empty
  | .micro m => (fromEpoch (roundSeconds m)).map fun t => braces (dateText t.date)

/-- `read_datetime`, fxp_read.py:150-154. -/
def readDatetime : Stored → Option Str
  | .zero => some empty
  | .micro m => (fromEpoch (roundSeconds m)).map fun t =>
      braces (dateText t.date ++ (match t.time with | some t => ' ' :: timeText t | none => []))

end Model.FxpDates
