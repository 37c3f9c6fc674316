import Verif.Model.PyVal
/-!
# CREATEOBJECT

The conversion of CREATEOBJECT (vfp2py_convert_visitor.py 887-909) and the run-time function
`create_object` (vfpfunc.py 1691-1704), with the names of classes that the converter makes
(`visitPrg` 159-163, `visitClassDefStart` 327-336).

A class definition is identified by where it stands.  The objects created are described by the
class and the arguments that its constructor gets.  Arguments are values of any type `β`.
-/
namespace Model.Objects
open PyVal (title)

/-- Text as a list of characters; a Python `str` at vfp2py_convert_visitor.py:887-909. -/
abbrev Str := List Char

/-- Where a class comes from. vfp2py_convert_visitor.py:159-163; vfpfunc.py:150-845 -/
inductive Cls where
  /-- a class of vfpfunc.py -/
  | base (name : Str)
  /-- class definition number `i` of the program -/
  | own (i : Nat)
  /-- class definition number `i` of the procedure file number `m` of the search list -/
  | lib (m i : Nat)
  /-- a class of the operating system -/
  | com (name : Str)
  deriving DecidableEq, Repr

/-- The classes of vfpfunc.py whose name is written as `title` writes it, lines 774-845, 850, 874
(the same names when PySide is installed). -/
def runtimeClasses : List Str :=
  ["Custom".toList, "Formset".toList, "Form".toList, "Commandbutton".toList, "Label".toList,
   "Textbox".toList, "Checkbox".toList, "Combobox".toList, "Spinner".toList, "Shape".toList,
   "Separator".toList, "Toolbar".toList, "Listbox".toList, "Grid".toList, "Optiongroup".toList,
   "Optionbutton".toList, "Pageframe".toList, "Page".toList, "Image".toList, "Timer".toList,
   "Container".toList, "Editbox".toList, "Dataenvironment".toList, "Exception".toList, "Array".toList]

/-- The other attributes of vfpfunc.py written so, lines 1712-1716; they cannot be called. -/
def runtimeOthers : List Str := ["M".toList, "S".toList, "F".toList, "C".toList]

/-- `hasattr(vfpfunc, name)` for a name written as `title` writes it. vfp2py_convert_visitor.py:887-909 -/
def isRuntime (t : Str) : Bool := runtimeClasses.contains t || runtimeOthers.contains t

/-- The names of the classes defined in the program, as written; `none`: `visitClassDefStart`
(vfp2py_convert_visitor.py:333-334) raises and there is no output. -/
def classList (own : List Str) : Option (List Str) :=
  let names := own.map title
  if names.any isRuntime then none else some names

/-- The first argument of CREATEOBJECT: a literal, or an expression with its value. vfp2py_convert_visitor.py:887-909 -/
inductive NameArg where
  | literal (s : Str)
  | value (s : Str)
  deriving DecidableEq, Repr

/-- The code for CREATEOBJECT. vfp2py_convert_visitor.py:887-909 -/
inductive Code where
  /-- a Python tuple, list or dictionary -/
  | python
  /-- `Name(...)` -/
  | own (name : Str)
  /-- `vfpfunc.Name(...)` -/
  | runtime (name : Str)
  /-- `vfpfunc.create_object(name, ...)` -/
  | createObject (name : Str)
  deriving DecidableEq, Repr

/-- vfp2py_convert_visitor.py:887-909 -/
def pythonNames : List Str := ["pythontuple".toList, "pythonlist".toList, "pythondictionary".toList]

/-- vfp2py_convert_visitor.py:898-899. -/
def objtype (s : Str) : Str := if "self.".toList.isPrefixOf s then s else title s

/-- vfp2py_convert_visitor.py:887-909; `classes` is the list of the converter. -/
def convert (classes : List Str) : NameArg → Code
  | .literal s =>
    if pythonNames.contains (s.map Char.toLower) then .python
    else if classes.contains (objtype s) then .own (objtype s)
    else if isRuntime (objtype s) then .runtime (objtype s)
    else .createObject (objtype s)
  | .value s => .createObject s

/-- What is there when the program runs: the class names of the program and of the procedure files
in the order of the search list (all as converted), and the classes of the operating system. vfpfunc.py:1691-1704 -/
structure World where
  own : List Str
  libs : List (List Str)
  com : Str → Bool

/-- vfpfunc.py:1691-1704 -/
inductive Made (β : Type) where
  | python
  | object (c : Cls) (args : List β)
  | raises
  deriving DecidableEq, Repr

/-- `vfpfunc.Name(...)`. vfpfunc.py:1691-1704 -/
def callRuntime {β : Type} (t : Str) (args : List β) : Made β :=
  if runtimeClasses.contains t then .object (.base t) args else .raises

/-- The definition that a name stands for in a module: the last one, since `vfpclass` and `def` put each definition
in the place of an earlier one of that name. vfpfunc.py:1779-1787 -/
def definition (t : Str) (l : List Str) : Option Nat := (l.reverse.findIdx? (· = t)).map fun k => l.length - 1 - k

/-- `_Class.__getitem__`, vfpfunc.py:1117-1122, with the number of the module. -/
def getClass (t : Str) : Nat → List (List Str) → Option Cls
  | _, [] => none
  | m, l :: ls =>
    match definition t l with
    | some i => some (.lib m i)
    | none => getClass t (m + 1) ls

/-- `create_object`, vfpfunc.py:1691-1704.  The frame looked into is the caller of the function that
has the CREATEOBJECT in it; that is the wrapper made by the decorators of vfpfunc.py (1727-1771), so
its globals are those of vfpfunc.py. -/
def createObject {β : Type} (w : World) (name : Str) (args : List β) : Made β :=
  let t := title name
  if isRuntime t then callRuntime t args
  else
    match getClass t 0 w.libs with
    | some c => .object c []
    | none => if w.com t then .object (.com t) [] else .raises

/-- Executing the code; the own classes are called by name. vfp2py_convert_visitor.py:887-909; vfpfunc.py:1691-1704 -/
def run {β : Type} (w : World) (args : List β) : Code → Made β
  | .python => .python
  | .own t =>
    match definition t w.own with
    | some i => .object (.own i) args
    | none => .raises
  | .runtime t => callRuntime t args
  | .createObject name => createObject w name args

end Model.Objects
