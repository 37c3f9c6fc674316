import Verif.Model.Objects
/-!
# Superclasses

`visitClassDefStart` and `modify_superclass`, vfp2py_convert_visitor.py:230-237, 327-336, with what the generated
`BaseClass = ...` (287-290) gives when the class is made: `vfpclass`, vfpfunc.py:1779-1787, and `_Class.__getitem__`,
1117-1122.

Simplifications: the names of classes and superclasses are names without dots; all procedure files of the search list are
converted programs.
-/
namespace Model.Inherit
open Model.Objects (Str Cls isRuntime runtimeClasses definition getClass)
open PyVal (title)

/-- DEFINE CLASS name AS parent [OF file], VisualFoxpro9.g4:53-55. -/
structure Def where
  name : Str
  parent : Str
  file : Option Str
  deriving DecidableEq, Repr

/-- The classes of the program and of the procedure files in the order of the search list. vfpfunc.py:1108-1122 -/
structure World where
  own : List Def
  libs : List (List Def)

/-- `class_list`, vfp2py_convert_visitor.py:160-161 -/
def classNames (file : List Def) : List Str := file.map fun d => title d.name

/-- The expression behind `BaseClass = `. vfp2py_convert_visitor.py:230-237 -/
inductive Super where
  /-- `vfpfunc.Name` -/
  | runtime (t : Str)
  /-- `NameType()` -/
  | own (t : Str)
  /-- `C['Name']` -/
  | lookup (t : Str)
  deriving DecidableEq, Repr

/-- `visitClassDefStart` and `modify_superclass`: of AS parent OF file the file is dropped (the `[0]` of 328).
vfp2py_convert_visitor.py:230-237, 327-336 -/
def superCode (classes : List Str) (d : Def) : Super :=
  if isRuntime (title d.parent) then .runtime (title d.parent)
  else if classes.contains (title d.parent) then .own (title d.parent)
  else .lookup (title d.parent)

/-- The file with a class, and its definition. vfp2py_convert_visitor.py:159-163 -/
def fileOf (w : World) : Cls → Option (List Def)
  | .own _ => some w.own
  | .lib m _ => w.libs[m]?
  | .base _ => none
  | .com _ => none

/-- vfp2py_convert_visitor.py:159-163 -/
def number : Cls → Nat
  | .own i => i
  | .lib _ i => i
  | .base _ => 0
  | .com _ => 0

/-- Class definition `i` in the file of the class `c`. vfp2py_convert_visitor.py:159-163 -/
def beside (c : Cls) (i : Nat) : Cls :=
  match c with
  | .lib m _ => .lib m i
  | _ => .own i

/-- The value of `BaseClass`, `none` for an exception. vfp2py_convert_visitor.py:287-290; vfpfunc.py:1117-1122, 1779-1787 -/
def superOf (w : World) (c : Cls) : Option Cls :=
  match fileOf w c with
  | none => none
  | some file =>
    match file[number c]? with
    | none => none
    | some d =>
      match superCode (classNames file) d with
      | .runtime t => if runtimeClasses.contains t then some (.base t) else none
      | .own t => (definition t (classNames file)).map (beside c)
      | .lookup t => getClass t 0 (w.libs.map classNames)

/-- The class and all its superclasses that are made by calling its function; the number is the depth of calls that
Python allows, `none` is an exception. vfpfunc.py:1783-1784; vfp2py_convert_visitor.py:318-323 -/
def ancestors (w : World) : Nat → Cls → Option (List Cls)
  | 0, _ => none
  | n + 1, c =>
    match c with
    | .base t => some [.base t]
    | c =>
      match superOf w c with
      | none => none
      | some p => (ancestors w n p).map (c :: ·)

end Model.Inherit
