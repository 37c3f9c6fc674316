import Verif.Model.Dates
/-!
# The parts of dates and times, the clock and the times of files

The code that `convert_function` emits in place of YEAR, MONTH, DAY, HOUR, MINUTE, SEC, CDOW, CMONTH, TIME and DTOT
(vfp2py_convert_visitor.py 722-752), and `fdate`, `ftime` and `seconds` (vfpfunc.py 1192-1199, 1427-1429), with the
attributes and methods of Python's `datetime` that they use.  `%A` and `%B` are the English names (the "C" locale, which a
Python program has unless it calls `setlocale`).  Python 2 refuses `strftime` for years before 1900; this is left out.  DMY is
not modelled.
-/
namespace Model.Clock
open Model.Dates

/-- `datetime.time`. As used by vfpfunc.py:1198-1199 and 1427-1429 -/
structure Clock where
  hour : Nat
  minute : Nat
  second : Nat
  micro : Nat
  deriving DecidableEq, Repr

/-- The values that occur: `datetime.date`, `datetime.datetime`, `datetime.time`, numbers and texts.  As used by
vfp2py_convert_visitor.py:722-752 and vfpfunc.py:1192-1199 -/
inductive Val where
  | date (d : Date)
  | datetime (d : Date) (t : Clock)
  | time (t : Clock)
  | num (n : Nat)
  | text (s : Str)
  deriving DecidableEq, Repr

/-- The functions of vfp2py_convert_visitor.py:740 except DOW (`Model.Settings`) and DMY. -/
inductive Part where
  | year | month | day | hour | minute | sec | cdow | cmonth
  deriving DecidableEq, Repr

/-- `_is_leap` of Python's `datetime`, called by way of vfp2py_convert_visitor.py:745 -/
def isLeap (y : Nat) : Bool := y % 4 == 0 && (y % 100 != 0 || y % 400 == 0)

/-- `_days_before_year` of Python's `datetime`, called by way of vfp2py_convert_visitor.py:745 -/
def daysBeforeYear (y : Nat) : Nat := (y - 1) * 365 + (y - 1) / 4 - (y - 1) / 100 + (y - 1) / 400

/-- `_days_before_month` of Python's `datetime`, called by way of vfp2py_convert_visitor.py:745 -/
def daysBeforeMonth (y m : Nat) : Nat :=
  [0, 31, 59, 90, 120, 151, 181, 212, 243, 273, 304, 334].getD (m - 1) 0 + (if 2 < m ∧ isLeap y then 1 else 0)

/-- `date.toordinal`, called by way of vfp2py_convert_visitor.py:745 -/
def toordinal (d : Date) : Nat := daysBeforeYear d.year + daysBeforeMonth d.year d.month + d.day

/-- `date.weekday`, called by way of vfp2py_convert_visitor.py:745; Monday is 0. -/
def weekday (d : Date) : Nat := (toordinal d + 6) % 7

/-- `%A`, vfp2py_convert_visitor.py:745 -/
def dayName (d : Date) : Str :=
  (["Monday", "Tuesday", "Wednesday", "Thursday", "Friday", "Saturday", "Sunday"].getD (weekday d) "").toList

/-- `%B`, vfp2py_convert_visitor.py:746 -/
def monthName (d : Date) : Str :=
  (["January", "February", "March", "April", "May", "June", "July", "August", "September", "October", "November",
    "December"].getD (d.month - 1) "").toList

/-- The attribute of a date; `none` is an AttributeError.  vfp2py_convert_visitor.py:742-752 -/
def ofDate (d : Date) : Part → Option Val
  | .year => some (.num d.year)
  | .month => some (.num d.month)
  | .day => some (.num d.day)
  | .cdow => some (.text (dayName d))
  | .cmonth => some (.text (monthName d))
  | .hour | .minute | .sec => none

/-- The attribute of a time; `strftime` of a time takes the first day of 1900.  vfp2py_convert_visitor.py:742-752 -/
def ofTime (t : Clock) : Part → Option Val
  | .hour => some (.num t.hour)
  | .minute => some (.num t.minute)
  | .sec => some (.num t.second)
  | .cdow => some (.text (dayName ⟨1900, 1, 1⟩))
  | .cmonth => some (.text (monthName ⟨1900, 1, 1⟩))
  | .year | .month | .day => none

/-- `{}.{}` of vfp2py_convert_visitor.py:749-752; `none` is an exception. -/
def part (p : Part) : Val → Option Val
  | .date d => ofDate d p
  | .datetime d t => (ofDate d p).or (ofTime t p)
  | .time t => ofTime t p
  | .num _ | .text _ => none

/-- `strftime('%H:%M:%S')`, vfp2py_convert_visitor.py:730 -/
def hms (t : Clock) : Str := digits 2 t.hour ++ ':' :: digits 2 t.minute ++ ':' :: digits 2 t.second

/-- TIME() and TIME(n) at the moment `t`, vfp2py_convert_visitor.py:729-730 and 736-737 -/
def time (t : Clock) (argument : Bool) : Val :=
  if argument then .text ((hms t ++ '.' :: digits 6 t.micro).take 11) else .text (hms t)

/-- DTOT(d), vfp2py_convert_visitor.py:738-739; `combine` takes a date or a datetime. -/
def dtot : Val → Option Val
  | .date d => some (.datetime d ⟨0, 0, 0, 0⟩)
  | .datetime d _ => some (.datetime d ⟨0, 0, 0, 0⟩)
  | _ => none

/-- `seconds` at the moment `t`: the attribute `seconds` of the time since midnight, vfpfunc.py:1427-1429 -/
def seconds (t : Clock) : Nat := ((((t.hour * 60 + t.minute) * 60 + t.second) * 1000000 + t.micro) / 1000000) % 86400

/-- `fdate` for a file last changed at the given local time (`none`: there is no such file), vfpfunc.py:1192-1196 -/
def fdate (changed : Option (Date × Clock)) (datetype : Int) : Option Val :=
  if ¬ (datetype = 0 ∨ datetype = 1) then none
  else changed.map fun (d, t) => if datetype ≠ 0 then .datetime d t else .date d

/-- `ftime`, vfpfunc.py:1198-1199 -/
def ftime (changed : Option (Date × Clock)) : Option Val :=
  match fdate changed 1 with
  | some (.datetime _ t) => some (.time t)
  | _ => none

/-- The value of DTOC or DTOS (`withTime` tells whether the value has an `hour`), vfpfunc.py:1177-1187; the microseconds are
not written. -/
def moment : Val → Option Moment
  | .date d => some ⟨d, none⟩
  | .datetime d t => some ⟨d, some ⟨t.hour, t.minute, t.second⟩⟩
  | _ => none

/-- DTOS and DTOC, vfpfunc.py:1177-1187 -/
def asText (dtosWanted : Bool) (v : Val) : Option Val :=
  (moment v).map fun m => .text (if dtosWanted then dtos m else dtoc m)

end Model.Clock
