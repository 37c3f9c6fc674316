/-!
# INT, CEILING, MAX, MIN and INLIST

`func_call` (`/repo/vfp2py/vfp2py_convert_visitor.py`) writes these functions as Python's `int` (843-844),
`math.ceil` (813-825), `max` and `min` (839-840) and `x in (..)` (849-850).

Simplifications: numbers are exact rationals; a date is its day number; logical values are left out; the
arguments are values, how they are written is the subject of C71 and C125.
-/
namespace Model.Extremes

/-- The values that occur as arguments, vfp2py_convert_visitor.py:839-850 -/
inductive Val where
  | num (r : Rat)
  | text (s : List Char)
  | date (d : Int)
  | null
  deriving DecidableEq, Repr

/-- Python's `int`, vfp2py_convert_visitor.py:844 -/
def toInt (r : Rat) : Int := Int.tdiv r.num r.den

/-- `math.ceil`, vfp2py_convert_visitor.py:818-825 -/
def ceil (r : Rat) : Int := -((-r.num) / r.den)

/-- Python's `<`, by which `max` and `min` choose, vfp2py_convert_visitor.py:840; `none` is a TypeError. -/
def lt : Val → Val → Option Bool
  | .num a, .num b => some (decide (a < b))
  | .text s, .text t => some (decide (s < t))
  | .date d, .date e => some (decide (d < e))
  | _, _ => none

/-- The loop of `max` and `min`: `m` is replaced by every argument that is better. vfp2py_convert_visitor.py:840 -/
def pick (better : Val → Val → Option Bool) : Val → List Val → Option Val
  | m, [] => some m
  | m, x :: xs =>
    match better x m with
    | none => none
    | some true => pick better x xs
    | some false => pick better m xs

/-- `max(x, ...)`, vfp2py_convert_visitor.py:840 -/
def max (x : Val) (xs : List Val) : Option Val := pick (fun y m => lt m y) x xs

/-- `min(x, ...)`, vfp2py_convert_visitor.py:840 -/
def min (x : Val) (xs : List Val) : Option Val := pick lt x xs

/-- `x in (...)`: Python's `==`, which never raises for these values. vfp2py_convert_visitor.py:850 -/
def inlist (x : Val) (ys : List Val) : Bool := ys.any (· == x)

end Model.Extremes
