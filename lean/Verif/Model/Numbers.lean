import Verif.Model.PyVal
/-!
# VAL and ROUND

`func_call` of vfp2py_convert_visitor.py 658-659 (`float`) and 867-868 (`round`): the functions of
Python that the calls become.  Numbers are exact; the rounding of a number to a float is left out.
-/
namespace Model.Numbers

/-- What `float` returns: `m * 10 ^ e`, an infinity or not a number. -/
inductive Num where
  | fin (m e : Int)
  | inf (negative : Bool)
  | nan
  deriving DecidableEq, Repr

/-- The sign of a number, vfp2py_convert_visitor.py:658-659, 867-868 -/
def Num.neg : Num → Num
  | .fin m e => .fin (-m) e
  | .inf b => .inf (!b)
  | .nan => .nan

/-- The digits that follow a digit, which single underscores may separate, and the rest.
Part of Python's `float` of a text, called by vfp2py_convert_visitor.py:658-659 -/
def moreDigits : List Char → List Char × List Char
  | [] => ([], [])
  | [c] => if c.isDigit then ([c], []) else ([], [c])
  | c :: d :: s =>
    if c.isDigit then
      let r := moreDigits (d :: s)
      (c :: r.1, r.2)
    else if c = '_' ∧ d.isDigit then
      let r := moreDigits s
      (d :: r.1, r.2)
    else ([], c :: d :: s)

/-- Digits at the start of a text, and the rest.
Part of Python's `float` of a text, called by vfp2py_convert_visitor.py:658-659 -/
def digitPart : List Char → List Char × List Char
  | [] => ([], [])
  | c :: s =>
    if c.isDigit then
      let r := moreDigits s
      (c :: r.1, r.2)
    else ([], c :: s)

/-- The number that digits denote. Part of Python's `float` of a text, called by vfp2py_convert_visitor.py:658-659 -/
def value (ds : List Char) : Nat := Nat.ofDigitChars 10 ds 0

/-- The end of a number: nothing, or an exponent.
Part of Python's `float` of a text, called by vfp2py_convert_visitor.py:658-659 -/
def exponent (m e : Int) : List Char → Option Num
  | [] => some (.fin m e)
  | c :: r =>
    if c = 'e' ∨ c = 'E' then
      let (neg, r) : Bool × List Char := match r with
        | '-' :: r => (true, r)
        | '+' :: r => (false, r)
        | r => (false, r)
      match digitPart r with
      | ([], _) => none
      | (ds, []) => some (.fin m (if neg then e - value ds else e + value ds))
      | _ => none
    else none

/-- A number without sign. Part of Python's `float` of a text, called by vfp2py_convert_visitor.py:658-659 -/
def unsigned (s : List Char) : Option Num :=
  match digitPart s with
  | (ip, '.' :: r) =>
    match digitPart r with
    | (fp, r) => if ip = [] ∧ fp = [] then none else exponent (value (ip ++ fp)) (-(fp.length : Int)) r
  | (ip, r) =>
    if ip = [] then
      let w := s.map Char.toLower
      if w = "inf".toList ∨ w = "infinity".toList then some (.inf false)
      else if w = "nan".toList then some .nan
      else none
    else exponent (value ip) 0 r

/-- A number with or without sign. Part of Python's `float` of a text, called by vfp2py_convert_visitor.py:658-659 -/
def signed : List Char → Option Num
  | '-' :: s => (unsigned s).map Num.neg
  | '+' :: s => unsigned s
  | s => unsigned s

/-- VAL(text): `float(text)`, vfp2py_convert_visitor.py:658-659, by the grammar in Python's
documentation; `none` is the ValueError. -/
def val (s : List Char) : Option Num := signed (PyVal.strip s)

/-- ROUND(x, n): `round(x, n)`, vfp2py_convert_visitor.py:867-868, where `x * 10 ^ n` is the fraction
`a / b` with `b > 0`; the result, times `10 ^ n`: the nearest whole number, of two the even one. -/
def round (a b : Int) : Int :=
  let q := a / b
  let r := a % b
  if 2 * r < b then q
  else if 2 * r > b then q + 1
  else if q % 2 = 0 then q
  else q + 1

end Model.Numbers
