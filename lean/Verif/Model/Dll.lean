import Verif.Py.Dict
/-!
# DECLARE ... IN library, CLEAR DLLS

`visitDllDeclare` and `visitClearStmt` (vfp2py_convert_visitor.py:1315-1339), `_Function.dll_declare`,
`dll_clear` and the first loop of `__getitem__` (vfpfunc.py:1059-1062, 1085-1108), and of `ctypes.CDLL` what
they use: a library is known by the name it was loaded with (`_name`); `getattr` gives an attribute of
the object, or else the function that the library exports under exactly that name, which then becomes an
attribute.

Simplifications: names that begin with an underscore (attributes of every `CDLL`) are left out, and so is what
happens to the arguments and the result of a call.
-/
namespace Model.Dll
open Py (Dict)

/-- Text as a list of characters; a Python `str` at vfpfunc.py:1085-1108. -/
abbrev Str := List Char

/-- `str.lower()`, vfp2py_convert_visitor.py:1396-1402 -/
def lower (s : Str) : Str := s.map Char.toLower

/-- The libraries of a system: `dlopen n` are the functions of the library with that file name,
`find` is `ctypes.util.find_library`, `main` are the functions of the running program (`CDLL(None)`;
`none` on Windows, where this raises). vfpfunc.py:1085-1099 -/
structure World where
  dlopen : Str → Option (List Str)
  find : Str → Option Str
  main : Option (List Str)

/-- A library: `_name` and the exported functions. vfpfunc.py:1085-1099 -/
structure Lib where
  name : Option Str
  exports : List Str
  deriving DecidableEq, Repr

/-- A function of a library. vfpfunc.py:1085-1099 -/
structure Sym where
  lib : Option Str
  name : Str
  deriving DecidableEq, Repr

/-- A `CDLL` object with the attributes it got. vfpfunc.py:1085-1108 -/
structure Loaded where
  lib : Lib
  attrs : Dict Str Sym
  deriving DecidableEq, Repr

/-- vfpfunc.py:1087-1090. -/
def load (w : World) (n : Str) : Option Lib :=
  match w.dlopen n with
  | some e => some ⟨some n, e⟩
  | none =>
    match w.find n with
    | some p => (w.dlopen p).map fun e => ⟨some p, e⟩
    | none => w.main.map fun e => ⟨none, e⟩

/-- `getattr(dll, k)`; `none` is AttributeError. vfpfunc.py:1059-1062, 1097 -/
def Loaded.get (d : Loaded) (k : Str) : Option Sym :=
  match Dict.get d.attrs k with
  | some s => some s
  | none => if k ∈ d.lib.exports then some ⟨d.lib.name, k⟩ else none

/-- `setattr(dll, k, s)`; also what `getattr` does after it has looked up a function. vfpfunc.py:1097-1099 -/
def Loaded.put (d : Loaded) (k : Str) (s : Sym) : Loaded := { d with attrs := Dict.set d.attrs k s }

/-- `hasattr(dll, k)`, which looks the function up, and then `delattr(dll, k)`. vfpfunc.py:1101-1108 -/
def Loaded.del (d : Loaded) (k : Str) : Loaded := { d with attrs := Dict.del d.attrs k }

/-- Exceptions of vfpfunc.py:1059-1108 -/
inductive Err where
  | osError | attributeError
  deriving DecidableEq, Repr

/-- vfpfunc.py:1095-1097: `func = getattr(dll, funcname); setattr(dll, alias or funcname, func)`. -/
def Loaded.declare (d : Loaded) (func alias : Str) : Option Loaded :=
  (d.get func).map fun s => (d.put func s).put alias s

/-- `dll_declare`, vfpfunc.py:1085-1099: a library with this name that is there already is used again. -/
def dllDeclare (w : World) (dlls : List Loaded) (library func : Str) (alias : Option Str) :
    List Loaded × Option Err :=
  match load w library with
  | none => (dlls, some .osError)
  | some l =>
    let alias := match alias with
      | none => func
      | some a => if a = [] then func else a
    match dlls.findIdx? (fun d => d.lib.name = l.name) with
    | some i =>
      match dlls[i]?.bind (·.declare func alias) with
      | some d => (dlls.set i d, none)
      | none => (dlls, some .attributeError)
    | none =>
      match (Loaded.mk l []).declare func alias with
      | some d => (dlls ++ [d], none)
      | none => (dlls, some .attributeError)

/-- `dll_clear` with names, vfpfunc.py:1104-1108. -/
def dllClear (dlls : List Loaded) (funcs : List Str) : List Loaded := dlls.map fun d => funcs.foldl Loaded.del d

/-- The first loop of `F[k]`, vfpfunc.py:1060-1062: the first library that has the function. -/
def lookup (dlls : List Loaded) (k : Str) : Option Sym := dlls.findSome? (·.get k)

/-! ## Commands -/

/-- The file name of a library: written in the program, or the value of an expression. vfp2py_convert_visitor.py:1335-1339 -/
inductive Arg where
  | literal (s : Str)
  | value (s : Str)
  deriving DecidableEq, Repr

/-- `visitSpecialExpr`, vfp2py_convert_visitor.py:1152-1154. -/
def Arg.get : Arg → Str
  | .literal s => lower s
  | .value s => s

/-- `DECLARE [result] function IN library [AS alias] [params]`. vfp2py_convert_visitor.py:1335-1339 -/
structure Decl where
  result : Option Str
  function : Str
  library : Arg
  alias : Option Str
  params : List (Str × Bool)
  deriving DecidableEq, Repr

/-- `visitIdentifier`, vfp2py_convert_visitor.py:1396-1402. -/
def identifier (x : Str) : Str := if lower x = "class".toList then "classtype".toList else lower x

/-- vfp2py_convert_visitor.py:1316-1339 -/
inductive Cmd where
  | declare (d : Decl)
  | clear (names : List Str)
  deriving DecidableEq, Repr

/-- The converted command (`visitDllDeclare`, `visitClearStmt`). vfp2py_convert_visitor.py:1316-1339 -/
def exec (w : World) (dlls : List Loaded) : Cmd → List Loaded × Option Err
  | .declare d => dllDeclare w dlls d.library.get (identifier d.function) (d.alias.map identifier)
  | .clear names => (dllClear dlls (names.map lower), none)

/-- The commands of a program; one that raises has no effect. Statements one after the other, vfp2py_convert_visitor.py:219-225 -/
def run (w : World) (h : List Cmd) : List Loaded := h.foldl (fun s c => (exec w s c).1) []

/-- The function that is called by `name(...)` if it is in a library: `F.name` (`func_call`,
vfp2py_convert_visitor.py:963-970), for a name that is not one of the run-time library. -/
def call (dlls : List Loaded) (name : Str) : Option Sym := lookup dlls (identifier name)

end Model.Dll
