/-!
# VARTYPE

`vartype` and `TYPE_MAP` (`/repo/vfp2py/vfpfunc.py` 1611-1624) and what values are in the generated code:
constants (`/repo/vfp2py/vfp2py_convert_visitor.py` 1160-1205), arrays (544), objects and variables
(`_Memvar.__getitem__`, vfpfunc.py 965-969, raises `NameError` for names that are not defined).

Simplifications: Python 3; the argument is a variable or a constant.
-/
namespace Model.VarType

/-- The types that `TYPE_MAP` tells apart, vfpfunc.py:1611-1619 -/
inductive PyType where
  | str | date | bool | int | float | datetime | none
  /-- `Array`, `bytearray` and the classes of objects. -/
  | other
  deriving DecidableEq, Repr

/-- `vartype`, vfpfunc.py:1623-1624 -/
def letter : PyType → Char
  | .str => 'C'
  | .date => 'D'
  | .bool => 'L'
  | .int => 'N'
  | .float => 'N'
  | .datetime => 'T'
  | .none => 'X'
  | .other => 'O'

/-- The values of FoxPro. vfp2py_convert_visitor.py:1160-1205 -/
inductive Value where
  | text (s : List Char)
  /-- A number, and whether it is written as a whole number. -/
  | number (r : Rat) (whole : Bool)
  | currency (r : Rat)
  /-- A date, or the empty date. -/
  | date (d : Option Int)
  | datetime (d : Int) (seconds : Nat)
  | logical (b : Bool)
  | null
  | object
  | binary (bytes : List Nat)
  | array (first : Value) (rest : List Value)

/-- The type of the Python value. vfp2py_convert_visitor.py:1160-1205, 544 -/
def pyType : Value → PyType
  | .text _ => .str                                  -- :1205
  | .number _ whole => if whole then .int else .float -- :1166-1169
  | .currency _ => .float                            -- :1173
  | .date (some _) => .date                          -- :1201
  | .date none => .none                              -- :1192-1193
  | .datetime _ _ => .datetime                       -- :1202
  | .logical _ => .bool                              -- :1188
  | .null => .none                                   -- :1184-1185
  | .object => .other
  | .binary _ => .other                              -- :1181
  | .array _ _ => .other                             -- :544

/-- `vfpfunc.vartype(S.name, ...)`: `none` is an exception; `vartype` has one parameter. vfpfunc.py:965-969, 1623 -/
def call (variables : String → Option Value) (name : String) (more : Nat) : Option Char :=
  if more ≠ 0 then none else (variables name).map (fun v => letter (pyType v))

end Model.VarType
