import Verif.Model.Memvar
import Verif.Model.Array
import Verif.Model.Database
import Verif.Model.ModuleNames
/-!
# Variables, fields and array elements in the generated code

Source: `/repo/vfp2py/vfpfunc.py`, classes `_Variable` (1024-1049, the object `S`), `_Function`
(1051-1073, the object `F`) and `_Memvar` (943-1022, the object `M`);
`/repo/vfp2py/vfp2py_convert_visitor.py`, `valid_identifier` (126-127), `visitDeclaration`
(530-554), `visitAssign` (565-585), `func_call` (963-970), `scopeId` (972-987), `createIdAttr`
(989-1006), `visitIdentifier` (1396-1402).

Simplifications: values are those of the variable model; subscripts are integers; the modules and
DLLs that `F` searches are given by the names of the functions found in them (their order is
modelled in `Model.Procs`); the fields of an open table are given by its file name; a record
that is not there (end of file) has no fields that can be read.
-/
namespace Model.Names
open Py Model

/-- Python's keywords (those in lower case). vfp2py_convert_visitor.py:126-127 -/
def keywords : List Name :=
  ["and", "as", "assert", "async", "await", "break", "class", "continue", "def", "del", "elif", "else",
   "except", "finally", "for", "from", "global", "if", "import", "in", "is", "lambda", "nonlocal", "not",
   "or", "pass", "raise", "return", "try", "while", "with", "yield"]

/-- `valid_identifier`, vfp2py_convert_visitor.py:126-127, for a FoxPro identifier (letters, digits
and underscores, not starting with a digit, in lower case). -/
def valid (x : Name) : Bool := decide (x ∉ keywords)

/-- `visitIdentifier`, vfp2py_convert_visitor.py:1396-1402, after lower-casing. -/
def visitIdentifier (x : Name) : Name := if x = "class" then "classtype" else x

/-- A record of a table: its fields. A record of a table, vfpfunc.py:1032-1040 -/
abbrev Row := List (Name × Val)

/-- An attribute of `S`: the object put there at the start, or something assigned later. vfpfunc.py:1024-1049 -/
inductive Slot where
  | intact
  | replaced (v : Val)
  deriving DecidableEq, Repr

/-- The state seen by the generated code. vfpfunc.py:1712-1716 -/
structure State where
  mem : Mem
  /-- The `Array` objects; references are positions. -/
  arrays : List (Arr Val)
  db : Database.DB Row
  /-- The field names of the table in a file. -/
  fields : Database.Str → List Name
  /-- The functions found by `F` in modules and DLLs. -/
  functions : List Name
  /-- `S.memvar`, `S.db`. -/
  memvarSlot : Slot
  dbSlot : Slot

/-- What a name gives. vfpfunc.py:1024-1073 -/
inductive Got where
  | value (v : Val)
  /-- The current record of a table (if there is one). -/
  | record (r : Option Row)
  /-- An object of the runtime library. -/
  | internal
  deriving DecidableEq, Repr

/-- Exceptions. Raised in vfpfunc.py:943-1073 -/
inductive Err where
  | nameError | indexError | attributeError | typeError | notAProcedure
  /-- The generated code does not access a variable: keywords of Python (the module cannot be read), THIS and
  THISFORM, names without letters; see C103. -/
  | notAVariable
  deriving DecidableEq, Repr

/-- `M[key]`, vfpfunc.py:965-969. -/
def memGet (m : Mem) (k : Name) : Except Err Got :=
  match m.getItem k with
  | .ok v => .ok (.value v)
  | .error _ => .error .nameError

/-- The field of the current record of the selected table, or the variable, vfpfunc.py:1036-1039. -/
def fieldOrVariable (σ : State) (k : Name) : Except Err Got :=
  match Database.tableInfo σ.db .none with
  | .ok w =>
    if k ∈ σ.fields w.file then
      match w.record with
      | some r =>
        match Dict.get r k with
        | some v => .ok (.value v)
        | none => .error .attributeError
      | none => .error .attributeError
    else memGet σ.mem k
  | .error .attributeError => memGet σ.mem k
  | .error _ => .error .indexError

/-- `_Variable.__getitem__`, vfpfunc.py:1031-1039, while `S.db` and `S.memvar` are what they were at
the start. -/
def lookup (σ : State) (k : Name) : Except Err Got :=
  match Database.tableInfo σ.db (.str k.toList) with
  | .ok w => .ok (.record w.record)
  | .error _ => fieldOrVariable σ k

/-- `_Variable.__getitem__`, vfpfunc.py:1031-1039. When `S.db` is something else, the first attempt
fails silently and `self.db._get_table_info()` raises; when `S.memvar` is something else it is
indexed with the name. -/
def getItem (σ : State) (k : Name) : Except Err Got :=
  match σ.dbSlot, σ.memvarSlot with
  | .intact, .intact => lookup σ k
  | .replaced _, _ => .error .attributeError
  | .intact, .replaced _ =>
    match lookup σ k with
    | .ok (.record r) => .ok (.record r)
    | _ => .error .typeError

/-- Names like `__class__`.  Objects have many such attributes; which ones is left open. vfpfunc.py:1045-1049 -/
def dunder (k : Name) : Bool := ['_', '_'].isPrefixOf k.toList && ['_', '_'].isPrefixOf k.toList.reverse

/-- `S.key`: `__getattr__` (1028-1029) is only called when the object has no such attribute. -/
def getAttr (σ : State) (k : Name) : Except Err Got :=
  if dunder k then .ok .internal else
  if k = "db" then
    match σ.dbSlot with
    | .intact => .ok .internal
    | .replaced v => .ok (.value v)
  else if k = "memvar" then
    match σ.memvarSlot with
    | .intact => .ok .internal
    | .replaced v => .ok (.value v)
  else getItem σ k

/-- `S[key] = val`, vfpfunc.py:1041-1042. -/
def setItem (σ : State) (k : Name) (v : Val) : Except Err State :=
  match σ.memvarSlot with
  | .intact =>
    match σ.mem.setItem k v with
    | .ok m => .ok { σ with mem := m }
    | .error _ => .error .indexError
  | .replaced _ => .error .typeError

/-- `S.key = val`, vfpfunc.py:1044-1048. -/
def setAttr (σ : State) (k : Name) (v : Val) : Except Err State :=
  if k = "db" then .ok { σ with dbSlot := .replaced v }
  else if k = "memvar" then .ok { σ with memvarSlot := .replaced v }
  else setItem σ k v

/-- Whether the code for a name in lower case is `S.x` (`createIdAttr`, `scopeId`, vfp2py_convert_visitor.py:1004-1006, 972-987). -/
def isVariable (x : Name) : Bool := decide (ModuleNames.variable_ x.toList = .attr "S".toList x.toList)

/-- The code for a variable that is read: `S.x`. vfpfunc.py:1029-1040 -/
def readVar (σ : State) (x : Name) : Except Err Got :=
  let x := visitIdentifier x
  if isVariable x then getAttr σ x else .error .notAVariable

/-- The code for `x = v`: `S.x = v` (`visitAssign`, vfp2py_convert_visitor.py:565-585). -/
def assignVar (σ : State) (x : Name) (v : Val) : Except Err State :=
  let x := visitIdentifier x
  if isVariable x then setAttr σ x v else .error .notAVariable

/-- The code for `m.x`: `S.m.x`.  `m` is not special for the converter (`visitAtomExpr`,
vfp2py_convert_visitor.py:1096-1118). -/
def readMemvar (σ : State) (x : Name) : Except Err Got :=
  match readVar σ "m" with
  | .error e => .error e
  | .ok (.record (some r)) =>
    match Dict.get r x with
    | some v => .ok (.value v)
    | none => .error .attributeError
  | .ok _ => .error .attributeError

/-! ## Array elements -/

/-- The attributes of `F`, vfpfunc.py:1051-1108. -/
def functionAttrs : List Name :=
  ["modules", "dlls", "set_procedure", "release_procedure", "dll_declare", "dll_clear"]

/-- `for scope in M.public_scopes: if key in scope and isinstance(scope[key], Array)`,
vfpfunc.py:1069-1071: the outermost level first. -/
def findArray (pub : List Frame) (k : Name) : Option Nat :=
  pub.reverse.findSome? fun f =>
    match f.get k with
    | some (.arr r) => some r
    | _ => none

/-- The code for `x(i, j)` and `x[i, j]` in an expression: `F.x(i, j)` (`createIdAttr`,
vfp2py_convert_visitor.py:990-992; `func_call`, 963-970), for a name that is neither a function of
the file nor one of the runtime library.  `none` stands for the call of a function. -/
def readElement (σ : State) (x : Name) (i j : Int) : Except Err (Option Val) :=
  let x := visitIdentifier x
  if valid x && decide (x ∈ functionAttrs) then .error .typeError
  else if x ∈ σ.functions then .ok none
  else
    match findArray σ.mem.pub x with
    | none => .error .notAProcedure
    | some r =>
      match σ.arrays[r]? with
      | none => .error .typeError
      | some a =>
        match a.get i j with
        | .ok v => .ok (some v)
        | .error _ => .error .indexError

/-- The code for `x(i, j) = v` and `x[i, j] = v`: `S.x[i, j] = v` (`visitAssign`,
vfp2py_convert_visitor.py:568-573). -/
def assignElement (σ : State) (x : Name) (i j : Int) (v : Val) : Except Err State :=
  match readVar σ x with
  | .error e => .error e
  | .ok (.value (.arr r)) =>
    match σ.arrays[r]? with
    | none => .error .typeError
    | some a =>
      match a.set i j v with
      | .ok a' => .ok { σ with arrays := σ.arrays.set r a' }
      | .error _ => .error .indexError
  | .ok _ => .error .typeError

/-! ## Declarations -/

/-- The kinds of declarations in a procedure. vfp2py_convert_visitor.py:530-554 -/
inductive Kind where
  /-- LOCAL, PRIVATE or PUBLIC. -/
  | scoped (s : Mem.ScopeKind)
  /-- DIMENSION or DECLARE without a scope. -/
  | dimension
  deriving DecidableEq, Repr

/-- A name with the dimensions of an array. vfp2py_convert_visitor.py:530-558 -/
structure Item where
  name : Name
  dims : Option (Int × Int)
  deriving DecidableEq, Repr

/-- The generated statement. vfp2py_convert_visitor.py:530-554 -/
inductive Code where
  /-- `M.add_local('a', b=Array(3))` and the like. -/
  | add (s : Mem.ScopeKind) (names : List Name) (arrays : List (Name × (Int × Int)))
  /-- `a = b = False`. -/
  | falses (names : List Name)
  /-- `a = Array(3)`, one statement for each. -/
  | locals (arrays : List (Name × (Int × Int)))
  deriving DecidableEq, Repr

/-- Names with dimensions. vfp2py_convert_visitor.py:530-554 -/
def arraysOf (items : List Item) : List (Name × (Int × Int)) := items.filterMap fun i => i.dims.map fun d => (i.name, d)

/-- Names without. vfp2py_convert_visitor.py:530-554 -/
def plainOf (items : List Item) : List Name := items.filterMap fun i => if i.dims.isNone then some i.name else none

/-- `visitDeclaration`, vfp2py_convert_visitor.py:530-554. With the word ARRAY, DIMENSION or DECLARE a
name without dimensions is an array of one element (538-539).  The last `return` reads
`([...] if names else []) + ...` only to its author: the arrays belong to the `else`. -/
def visitDeclaration (kind : Kind) (array : Bool) (items : List Item) : Code :=
  let items := if array || decide (kind = .dimension) then
    items.map fun i => { i with dims := some (i.dims.getD (1, 0)) } else items
  let arrays := arraysOf items
  let names := plainOf items
  match kind with
  | .scoped s => .add s names arrays
  | .dimension => if names ≠ [] then .falses names else .locals arrays

/-- Evaluate the arguments `Array(...)`: new objects. vfpfunc.py:875-882 -/
def allocate (heap : List (Arr Val)) : List (Name × (Int × Int)) → List (Arr Val) × List (Name × Val)
  | [] => (heap, [])
  | (x, d) :: t =>
    let (heap', kw) := allocate (heap ++ [Arr.init (.bool false) d.1 d.2]) t
    (heap', (x, .arr heap.length) :: kw)

/-- Run the generated statement.  `a = Array(3)` in a Python function binds a local name of that
function, which nothing in the state of the runtime library sees. vfpfunc.py:988-1001 -/
def runDeclaration (σ : State) : Code → Except Err State
  | .add s names arrays =>
    let (heap, kw) := allocate σ.arrays arrays
    match σ.mem.add s names kw with
    | .ok m => .ok { σ with mem := m, arrays := heap }
    | .error _ => .error .indexError
  | .falses _ => .ok σ
  | .locals _ => .ok σ

end Model.Names
