import Verif.Model.Extremes
import Verif.Spec.Blocks
/-!
# FOR with numbers that have fractions

Numbers are rationals (in the generated program they are ints and floats, of which `int` cuts the fraction off exactly).
-/
namespace Model.ForRange
open Model.Extremes (toInt)

/-- The values of the variable in the loop that `visitForStart` writes, `for S.v in range(int(a), int(b) + 1, int(s)):`;
without STEP there is no third argument; `none` is the exception that `range` raises for 0.
vfp2py_convert_visitor.py:462-472 -/
def values (a b : Rat) (s : Option Rat) : Option (List Int) :=
  match s with
  | none => some (BlocksSpec.pyRange (toInt a) (toInt b + 1) 1)
  | some s => if toInt s = 0 then none else some (BlocksSpec.pyRange (toInt a) (toInt b + 1) (toInt s))

end Model.ForRange
