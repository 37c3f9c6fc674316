/-!
# What `?` shows of a value

`visitPrintStmt`, vfp2py_convert_visitor.py:405-413: the values of the expressions are given to Python's `print`.

Simplifications: values are texts, whole numbers, logical values, `.NULL.` and dates; `print` is that of Python 3.
-/
namespace Model.Shown

abbrev Str := List Char

/-- A value of a FoxPro expression as the code of vfp2py_convert_visitor.py:413 has it. -/
inductive Val where
  | text (s : Str)
  | whole (n : Int)
  | logical (b : Bool)
  | null
  | date (year month day : Nat)
  deriving DecidableEq, Repr

/-- The last `w` decimal digits of a number. Part of `date.isoformat`, called by the code of vfp2py_convert_visitor.py:413 -/
def digits : Nat → Nat → Str
  | 0, _ => []
  | w + 1, n => digits w (n / 10) ++ [Char.ofNat (48 + n % 10)]

/-- Python's `str`, called by the code of vfp2py_convert_visitor.py:413 -/
def Val.str : Val → Str
  | .text s => s
  | .whole n => (toString n).toList
  | .logical true => "True".toList
  | .logical false => "False".toList
  | .null => "None".toList
  | .date y m d => digits 4 y ++ '-' :: (digits 2 m ++ '-' :: digits 2 d)

/-- The line that `print` writes. vfp2py_convert_visitor.py:413 -/
def line (vs : List Val) : Str := [' '].intercalate (vs.map Val.str)

end Model.Shown
