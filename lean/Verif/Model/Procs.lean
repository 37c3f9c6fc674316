import Verif.Spec.Procs
/-!
# Procedure files

`_Function` and `_Class` of vfpfunc.py, restricted to modules and libraries; the values
of a module are given by the environment.
-/
namespace Model.Procs

variable {M K V : Type} [DecidableEq M]

/-- What an attribute of a module is. vfpfunc.py:1059-1073 -/
inductive Attr (V : Type)
  | func (v : V)
  | cls (v : V)
  | other

/-- The attributes of modules: `getattr(module, key)` and `key in module._CLASSES` with
the class made by the entry. vfpfunc.py:1059-1073, 1117-1124 -/
structure Env (M K V : Type) where
  attr : M → K → Option (Attr V)
  classes : M → K → Option V

/-- `set_procedure` (vfpfunc.py 1074-1079 and 1123-1128). -/
def setProcedure (modules : List M) (module : M) (additive : Bool) : List M :=
  if additive then
    if module ∈ modules then module :: modules.erase module else module :: modules
  else [module]

/-- `release_procedure` (vfpfunc.py 1081-1083 and 1130-1132). The flag is `false` if
`remove` raised a ValueError; the modules before have been removed then. -/
def releaseProcedure : List M → List M → List M × Bool
  | modules, [] => (modules, true)
  | modules, m :: ms => if m ∈ modules then releaseProcedure (modules.erase m) ms else (modules, false)

/-- The loop over the modules in `_Function.__getitem__` (vfpfunc.py 1063-1068). -/
def findFunction (env : Env M K V) (key : K) : List M → Option V
  | [] => none
  | m :: ms =>
    match env.attr m key with
    | none => findFunction env key ms
    | some a =>
      if (env.classes m key).isSome then findFunction env key ms
      else match a with
        | .func v => some v
        | _ => findFunction env key ms

/-- `_Function.__getitem__` (vfpfunc.py 1059-1072): first the libraries, then the
modules, then arrays among the public variables; `none` is the exception. -/
def getFunction (env : Env M K V) (dll : K → Option V) (array : K → Option V) (modules : List M) (key : K) : Option V :=
  match dll key with
  | some v => some v
  | none =>
    match findFunction env key modules with
    | some v => some v
    | none => array key

/-- `_Class.__getitem__` (vfpfunc.py 1117-1122); `none` is the KeyError. -/
def getClass (env : Env M K V) (key : K) : List M → Option V
  | [] => none
  | m :: ms =>
    match env.classes m key with
    | some v => some v
    | none =>
      match env.attr m key with
      | some (.cls v) => some v
      | _ => getClass env key ms

/-- One command of the interface. vfpfunc.py:1074-1084, 1125-1134 -/
def step (modules : List M) : Spec.Procs.Cmd M → List M
  | .set m additive => setProcedure modules m additive
  | .release m => (releaseProcedure modules [m]).1

/-- A history, the last command first. vfpfunc.py:1074-1084, 1125-1134 -/
def run : List (Spec.Procs.Cmd M) → List M
  | [] => []
  | c :: h => step (run h) c

/-! ## Generated code -/

/-- The objects involved: modules and strings, which are never equal. vfpfunc.py:1074-1084 -/
inductive Obj
  | module (name : String)
  | str (name : String)
deriving DecidableEq

/-- `set('procedure', ...)` (vfpfunc.py 1679-1682), for at least one argument: only the
first one is used. -/
def setCommand (modules : List Obj) (names : List String) (additive : Bool) : Option (List Obj) :=
  match names with
  | [] => none
  | n :: _ => some (setProcedure modules (.module n) additive)

/-- The code generated for `RELEASE PROCEDURE` (vfp2py_convert_visitor.py 1421-1428):
the names are passed as strings. -/
def releaseCommand (modules : List Obj) (names : List String) : List Obj × Bool :=
  releaseProcedure modules (names.map .str)

end Model.Procs
