import Verif.Model.PyVal
/-!
# Functions that become methods of Python strings; tests of values

`func_call` of vfp2py_convert_visitor.py and `isblank` of vfpfunc.py.
-/
namespace Model.TextFns
open PyVal

/-- The dictionary of vfp2py_convert_visitor.py:779-787: the method that a function becomes. -/
def methodOf (f : String) : String :=
  if f = "alltrim" then "strip"
  else if f = "ltrim" then "lstrip"
  else if f = "rtrim" then "rstrip"
  else if f = "padr" then "ljust"
  else if f = "padl" then "rjust"
  else if f = "padc" then "center"
  else if f = "proper" then "title"
  else f

/-- `isblank`, vfpfunc.py:1249-1253; values other than strings have no `strip`. -/
def isblank : Val → Bool
  | .str s => (strip s).isEmpty
  | .none => true
  | _ => false

end Model.TextFns
