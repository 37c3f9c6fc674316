/-!
# Dates as texts

`ctod`, `dtos` and `dtoc` (vfpfunc.py 1148-1149, 1177-1187), which rely on `strftime` and `strptime` of
Python's `datetime`: `%m`, `%d`, `%H`, `%M`, `%S` have two digits; `%Y` is the year without leading
zeros (as on Linux); `strptime` with `%m/%d/%Y` accepts exactly a month of one or two digits, a day of
one or two digits (or a blank and a digit) and a year of four digits.
-/
namespace Model.Dates

/-- Text as a list of characters; a Python `str` at vfpfunc.py:1148-1187. -/
abbrev Str := List Char

/-- `datetime.date`. As used by vfpfunc.py:1148-1187 -/
structure Date where
  year : Nat
  month : Nat
  day : Nat
  deriving DecidableEq, Repr

/-- `datetime.datetime`; a value with an `hour` attribute. As used by vfpfunc.py:1177-1187 -/
structure Time where
  hour : Nat
  minute : Nat
  second : Nat
  deriving DecidableEq, Repr

/-- A date, or a date and a time. As used by vfpfunc.py:1177-1187 -/
structure Moment where
  date : Date
  time : Option Time
  deriving DecidableEq, Repr

/-- Part of `strftime`, called by vfpfunc.py:1177-1187 -/
def digit (n : Nat) : Char := Char.ofNat (48 + n % 10)

/-- The last `w` decimal digits. Part of `strftime`, called by vfpfunc.py:1177-1187 -/
def digits : Nat → Nat → Str
  | 0, _ => []
  | w + 1, n => digits w (n / 10) ++ [digit n]

/-- `%Y`. Part of `strftime`, called by vfpfunc.py:1177-1187 -/
def yearText (y : Nat) : Str :=
  if y < 10 then digits 1 y else if y < 100 then digits 2 y else if y < 1000 then digits 3 y else digits 4 y

/-- `dtos`, vfpfunc.py 1177-1181. -/
def dtos (m : Moment) : Str :=
  yearText m.date.year ++ digits 2 m.date.month ++ digits 2 m.date.day ++
    match m.time with
    | some t => digits 2 t.hour ++ digits 2 t.minute ++ digits 2 t.second
    | none => []

/-- `dtoc`, vfpfunc.py 1183-1187. -/
def dtoc (m : Moment) : Str :=
  digits 2 m.date.month ++ '/' :: digits 2 m.date.day ++ '/' :: yearText m.date.year ++
    match m.time with
    | some t => digits 2 t.hour ++ ':' :: digits 2 t.minute ++ ':' :: digits 2 t.second
    | none => []

/-- Days of a month, as `datetime` checks. Called by vfpfunc.py:1149 -/
def daysIn (y m : Nat) : Nat :=
  if m = 2 then if y % 4 = 0 ∧ (y % 100 ≠ 0 ∨ y % 400 = 0) then 29 else 28
  else if m = 4 ∨ m = 6 ∨ m = 9 ∨ m = 11 then 30 else 31

/-- Part of `strptime`, called by vfpfunc.py:1149; decimal digits of other scripts, which `strptime` reads in places, are
left out. -/
def digitVal (c : Char) : Option Nat := if 48 ≤ c.toNat ∧ c.toNat ≤ 57 then some (c.toNat - 48) else none

/-- One or two digits (`%m`: `1[0-2]|0[1-9]|[1-9]`). Part of `strptime`, called by vfpfunc.py:1149 -/
def parseMonth : Str → Option Nat
  | [a] => (digitVal a).bind fun x => if 1 ≤ x then some x else none
  | [a, b] => (digitVal a).bind fun x => (digitVal b).bind fun y =>
      if 1 ≤ 10 * x + y ∧ 10 * x + y ≤ 12 then some (10 * x + y) else none
  | _ => none

/-- `%d`: `3[0-1]|[1-2]\d|0[1-9]|[1-9]| [1-9]`. Part of `strptime`, called by vfpfunc.py:1149 -/
def parseDay : Str → Option Nat
  | [a] => (digitVal a).bind fun x => if 1 ≤ x then some x else none
  | [a, b] =>
    if a = ' ' then (digitVal b).bind fun y => if 1 ≤ y then some y else none
    else (digitVal a).bind fun x => (digitVal b).bind fun y =>
      if 1 ≤ 10 * x + y ∧ 10 * x + y ≤ 31 then some (10 * x + y) else none
  | _ => none

/-- `%Y`: `\d\d\d\d`. Part of `strptime`, called by vfpfunc.py:1149 -/
def parseYear : Str → Option Nat
  | [a, b, c, d] => (digitVal a).bind fun w => (digitVal b).bind fun x => (digitVal c).bind fun y => (digitVal d).bind fun z =>
      some (1000 * w + 100 * x + 10 * y + z)
  | _ => none

/-- The text up to a slash and behind it. Part of `strptime`, called by vfpfunc.py:1149 -/
def cutSlash : Str → Option (Str × Str)
  | [] => none
  | c :: s => if c = '/' then some ([], s) else (cutSlash s).map fun (a, b) => (c :: a, b)

/-- The date, if there is such a day. Part of `strptime`, called by vfpfunc.py:1149 -/
def makeDate (y m d : Nat) : Option Date :=
  if 1 ≤ y ∧ y ≤ 9999 ∧ 1 ≤ m ∧ m ≤ 12 ∧ 1 ≤ d ∧ d ≤ daysIn y m then some ⟨y, m, d⟩ else none

/-- `ctod`, vfpfunc.py 1148-1149; `none` is the exception ValueError. -/
def ctod (s : Str) : Option Date :=
  (cutSlash s).bind fun (a, s) => (cutSlash s).bind fun (b, c) =>
    (parseMonth a).bind fun m => (parseDay b).bind fun d => (parseYear c).bind fun y => makeDate y m d

end Model.Dates
