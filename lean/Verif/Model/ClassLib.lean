import Verif.Model.Files
import Verif.Model.PyVal
/-!
# Class libraries (VCX files)

`convert_vcx_to_vfp_code`, vfp2py.py 224-287: every record of a class library becomes a FoxPro
program with one class.  The value of a property is `propertyValue` of Model/Files (C57).

A record holds the fields that are used; `includes`, `props` and `methods` are the lines of the memo
fields RESERVED8, PROPERTIES and METHODS.  Blank lines mean nothing to FoxPro outside of TEXT blocks;
those that come from empty memo fields are left out.
-/
namespace Model.ClassLib
open PyVal (strip)
open Model.Files (propertyValue)

/-- Text as a list of characters; a Python `str` at vfp2py.py:224-287. -/
abbrev Str := List Char

/-- The fields of a record used in vfp2py.py:232-280 -/
structure Rec where
  objname : Str
  cls : Str
  parent : Str
  includes : List Str
  props : List Str
  methods : List Str
  deriving DecidableEq, Repr

/-- `line.split(' = ', 1)` when it has two parts; `cur` is the part read so far. vfp2py.py:242 -/
def splitFirst (cur : Str) : Str → Option (Str × Str)
  | ' ' :: '=' :: ' ' :: s => some (cur, s)
  | c :: s => splitFirst (cur ++ [c]) s
  | [] => none

/-- vfp2py.py:238-277; `none` is the ValueError of the unpacking.  `accepts` tells which texts the
parser takes for a constant. -/
def propLine (accepts : Str → Bool) (line : Str) : Option Str :=
  if line = [] then some []
  else (splitFirst [] line).map fun pv => strip pv.1 ++ " = ".toList ++ propertyValue accepts pv.2

/-- vfp2py.py:238-276 -/
def propLines (accepts : Str → Bool) : List Str → Option (List Str)
  | [] => some []
  | l :: ls =>
    match propLine accepts l, propLines accepts ls with
    | some a, some b => some (a :: b)
    | _, _ => none

/-- The lines for one record, vfp2py.py:233-282. -/
def classCode (accepts : Str → Bool) (r : Rec) : Option (List Str) :=
  (propLines accepts r.props).map fun ps =>
    r.includes.map (fun x => "#include \"".toList ++ x ++ "\"".toList) ++
      [("DEFINE CLASS ".toList ++ r.objname ++ " AS ".toList ++ r.cls)] ++ ps ++ [[]] ++ r.methods ++
      ["ENDDEFINE".toList, []]

/-- `convert_vcx_to_vfp_code`, vfp2py.py:224-287. -/
def convertVcx (accepts : Str → Bool) : List Rec → Option (List (List Str))
  | [] => some []
  | r :: rs =>
    if r.objname = [] ∨ r.cls = [] then convertVcx accepts rs
    else
      match classCode accepts r, convertVcx accepts rs with
      | some c, some cs => some (c :: cs)
      | _, _ => none

end Model.ClassLib
