import Verif.Model.Files
import Verif.Model.ModuleNames
/-!
# DO

`visitFuncDo` (vfp2py_convert_visitor.py 1257-1314) for names written out (not expressions), and
the execution of the generated call.  DO FORM is not modelled.  Names are in lower case
(`visitSpecialExpr`, 1152-1154) and contain no `/`; names of functions consist of letters, digits and
underscores.
-/
namespace Model.Do
open Spec.Files (Str lower)
open Model.Files (splitext)
open Model.ModuleNames (validIdentifier)

/-- The generated call. vfp2py_convert_visitor.py:1257-1314 -/
inductive Call
  /-- `f(...)`: a function of the same file. -/
  | own (f : Str)
  /-- `F.f(...)` or `F['f'](...)`. -/
  | viaF (f : Str)
  /-- `import mod` and `mod.f(...)`; without the import if `mod` is `vfpfunc`. -/
  | imported (mod f : Str)
  /-- `vfpfunc.module('mod').f(...)`. -/
  | byName (mod f : Str)
  deriving DecidableEq, Repr

/-- vfp2py_convert_visitor.py:1257-1314 -/
def prg : Str := ".prg".toList
/-- vfp2py_convert_visitor.py:1257-1314 -/
def mpr : Str := ".mpr".toList
/-- vfp2py_convert_visitor.py:1257-1314 -/
def spr : Str := ".spr".toList

/-- The call of a function in a file, vfp2py_convert_visitor.py 1293-1314. (`ntpath.splitext`,
`ntpath.normpath` and the replacement of backslashes leave an identifier as it is.) -/
def inFile (namespace_ f : Str) : Call :=
  let ns := if prg.isSuffixOf namespace_ then namespace_.take (namespace_.length - 4) else namespace_
  if validIdentifier ns then .imported ns f else .byName ns f

/-- vfp2py_convert_visitor.py 1278-1291: DO without a file, or in the same file. -/
def noFile (functions : List Str) (func : Str) : Call :=
  if func ∈ functions then .own func
  else
    let (stem, ext) := splitext func
    if ext ∈ [prg, mpr, spr] then
      inFile (if ext ∈ [mpr, spr] then stem ++ ext.map (fun c => if c = '.' then '_' else c) else stem) "MAIN".toList
    else .viaF func

/-- `visitFuncDo`; `functions` is `self.function_list`, `filename` is `self.filename` and an empty
`namespace_` stands for DO without IN. vfp2py_convert_visitor.py:1257-1314 -/
def convertDo (functions : List Str) (filename func namespace_ : Str) : Call :=
  let ns := if (splitext namespace_).1 = filename then [] else namespace_
  if ns = [] then noFile functions func else inFile ns func

/-- What the generated program finds when it runs. The run of the code of vfp2py_convert_visitor.py:1257-1314 -/
structure World where
  /-- Functions found by `F` in the modules set by SET PROCEDURE. -/
  procedures : List Str
  /-- The functions of the module with a name. -/
  modules : Str → Option (List Str)

/-- The run of the code of vfp2py_convert_visitor.py:1257-1314 -/
inductive Ran
  | own (f : Str)
  | procedure (f : Str)
  | inModule (mod f : Str)
  /-- A function of the run-time library, if it has one of that name. -/
  | library (f : Str)
  | notAProcedure | importError | attributeError
  /-- Python cannot read the module that has the call. -/
  | syntaxError
  deriving DecidableEq, Repr

/-- The run of the code of vfp2py_convert_visitor.py:1257-1314 -/
def callIn (w : World) (mod f : Str) : Ran :=
  match w.modules mod with
  | none => .importError
  | some fs => if f ∈ fs then .inModule mod f else .attributeError

/-- Whether Python reads a word as a name: it does not begin with a digit and is no keyword.  (A function
of the program, the module and the function in the code of vfp2py_convert_visitor.py:1257-1314.) -/
def pyName (s : Str) : Bool := validIdentifier s && !s.head?.any Char.isDigit

/-- Execution: `_Function.__getitem__` (vfpfunc.py 1059-1073), `import`, and `module` (vfpfunc.py
1718-1719), which imports the name in lower case; a name with a dot asks for a module inside
a package, and the converter writes no packages.  `F['f']` is written for a name that is no
`valid_identifier` (vfp2py_convert_visitor.py:983-987); the name `vfpfunc` is that of the library (vfp2py_convert_visitor.py:1299). -/
def run (w : World) : Call → Ran
  | .own f => if pyName f then .own f else .syntaxError
  | .viaF f => if validIdentifier f && !pyName f then .syntaxError else if f ∈ w.procedures then .procedure f else .notAProcedure
  | .imported mod f =>
    if !(pyName mod && pyName f) then .syntaxError
    else if mod = "vfpfunc".toList then .library f
    else callIn w mod f
  | .byName mod f => if !pyName f then .syntaxError else if '.' ∈ mod then .importError else callIn w (lower mod) f

end Model.Do
