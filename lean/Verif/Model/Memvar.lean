import Verif.Py.Dict
/-!
# Memory variables (`_Memvar`) and procedure calls (`_parameters`)

Source: `/repo/vfp2py/vfpfunc.py`, class `_Memvar` (lines 943-1022) and the
decorators `_parameters`, `parameters`, `lparameters` (lines 1727-1777).

Simplifications: values are a small closed type (the code never inspects the
values it stores); the Python lists `public_scopes` and `local_scopes` are kept
innermost level first, so Python's index `-1` is the head and index `0` the last
element.  Attribute syntax (`__getattr__`, `__setattr__`, lines 964-984) is the
item syntax and is not modelled separately.
-/
namespace Model
open Py

/-- Names of variables, vfpfunc.py:943-1022 -/
abbrev Name := String

/-- Run-time values that can be stored in a variable. Stored by vfpfunc.py:971-978 -/
inductive Val where
  | bool (b : Bool)
  | num (n : Int)
  | str (s : String)
  | null
  /-- A reference to an `Array` object. -/
  | arr (ref : Nat)
  deriving DecidableEq, Repr

/-- Python truth of a value (an array has elements; `__len__`, vfpfunc.py:918). -/
def Val.truthy : Val → Bool
  | .bool b => b
  | .num n => n ≠ 0
  | .str s => s ≠ ""
  | .null => false
  | .arr _ => true

/-- Exceptions that can escape from the modelled code. Raised in vfpfunc.py:943-1022, 1727-1777 -/
inductive Err where
  | nameError | indexError | typeError | user (msg : String)
  deriving DecidableEq, Repr

/-- One dictionary of `public_scopes` / `local_scopes`. vfpfunc.py:944-946 -/
abbrev Frame := Dict Name Val

/-- `_Memvar`: vfpfunc.py:943-946 (`public_scopes`, `local_scopes`). -/
structure Mem where
  pub : List Frame
  loc : List Frame
  deriving DecidableEq, Repr

namespace Mem

/-- The scope that `_get_scope` (vfpfunc.py:948-953) returns: the top local
dictionary, or the position (innermost first) of a dictionary of `public_scopes`. -/
inductive Loc where
  | locTop
  | pubAt (i : Nat)
  deriving DecidableEq, Repr

/-- `for scope in reversed(self.public_scopes): if key in scope: return scope`
(vfpfunc.py:951-953). -/
def findPub (k : Name) : List Frame → Option Nat
  | [] => none
  | f :: fs => if f.has k then some 0 else (findPub k fs).map (· + 1)

/-- `_get_scope`, vfpfunc.py:948-953. -/
def getScope (m : Mem) (k : Name) : Option Loc :=
  match m.loc with
  | f :: _ => if f.has k then some .locTop else (findPub k m.pub).map .pubAt
  | [] => (findPub k m.pub).map .pubAt

/-- Contents of the scope found by `getScope`. vfpfunc.py:948-953 -/
def frameAt (m : Mem) : Loc → Option Frame
  | .locTop => m.loc.head?
  | .pubAt i => m.pub[i]?

/-- In-place update of the scope found by `getScope` (dictionaries are shared
by reference in Python, so the stack sees the change). vfpfunc.py:971-972, 980-983 -/
def modifyAt (m : Mem) (l : Loc) (g : Frame → Frame) : Mem :=
  match l with
  | .locTop => { m with loc := m.loc.modify 0 g }
  | .pubAt i => { m with pub := m.pub.modify i g }

/-- `__getitem__`, vfpfunc.py:965-969. -/
def getItem (m : Mem) (k : Name) : Except Err Val :=
  match m.getScope k with
  | some l =>
    match (m.frameAt l).bind (fun f => f.get k) with
    | some v => .ok v
    | none => .error .nameError
  | none => .error .nameError

/-- `__setitem__`, vfpfunc.py:971-972.  `self._get_scope(key) or
self.public_scopes[-1]`: a scope that contains `key` is a non-empty dictionary,
hence truthy. -/
def setItem (m : Mem) (k : Name) (v : Val) : Except Err Mem :=
  match m.getScope k with
  | some l => .ok (m.modifyAt l (fun f => f.set k v))
  | none =>
    match m.pub with
    | [] => .error .indexError
    | f :: fs => .ok { m with pub := f.set k v :: fs }

/-- `__delitem__`, vfpfunc.py:980-983. -/
def delItem (m : Mem) (k : Name) : Mem :=
  match m.getScope k with
  | some l => m.modifyAt l (fun f => f.del k)
  | none => m

/-- `_add_to_scopes`, vfpfunc.py:988-992: first the positional names as `False`,
then the keyword items. -/
def addToScope (f : Frame) (names : List Name) (kw : List (Name × Val)) : Frame :=
  kw.foldl (fun acc p => acc.set p.1 p.2) (names.foldl (fun acc n => acc.set n (.bool false)) f)

/-- Kinds of variable declaration. vfpfunc.py:988-1001 -/
inductive ScopeKind where
  | loc | priv | pub
  deriving DecidableEq, Repr

/-- `add_local`, `add_private`, `add_public`, vfpfunc.py:994-1001. -/
def add (m : Mem) (kind : ScopeKind) (names : List Name) (kw : List (Name × Val)) :
    Except Err Mem :=
  match kind with
  | .loc =>
    match m.loc with
    | [] => .error .indexError
    | f :: fs => .ok { m with loc := addToScope f names kw :: fs }
  | .priv =>
    match m.pub with
    | [] => .error .indexError
    | f :: fs => .ok { m with pub := addToScope f names kw :: fs }
  | .pub =>
    match m.pub with
    | [] => .error .indexError
    | f :: fs => .ok { m with pub := (f :: fs).modify fs.length (fun g => addToScope g names kw) }

/-- `pushscope`, vfpfunc.py:1003-1005. -/
def push (m : Mem) : Mem := { pub := [] :: m.pub, loc := [] :: m.loc }

/-- `popscope`, vfpfunc.py:1007-1011 (`list.pop` on an empty list raises). -/
def pop (m : Mem) : Except Err Mem :=
  match m.pub, m.loc with
  | _ :: ps, _ :: ls => .ok { pub := ps, loc := ls }
  | _, _ => .error .indexError

/-- `release()` with the default mode, vfpfunc.py:1013-1022: deletes, one after
the other, every key of the top local and of the top private dictionary. -/
def release (m : Mem) : Except Err Mem :=
  match m.loc, m.pub with
  | l :: _, p :: _ => .ok ((l.keys ++ p.keys).foldl delItem m)
  | _, _ => .error .indexError

end Mem

/-! ## Converted procedures -/

/-- Expressions of the statement language: enough to move values around and to
observe the state (`S.x`, `vfpfunc.pcount()`, `vfpfunc.PARAMETERS`). vfp2py_convert_visitor.py:587-1255 -/
inductive Expr where
  | const (v : Val)
  | var (k : Name)
  | pcount
  | parameters
  deriving DecidableEq, Repr

/-- Statements of converted procedures that touch the variable stack. vfp2py_convert_visitor.py:530-585, 1419-1447, 1907-1910 -/
inductive Stmt where
  | skip
  | seq (a b : Stmt)
  | assign (k : Name) (e : Expr)
  | declare (kind : Mem.ScopeKind) (names : List Name) (kw : List (Name × Val))
  | del (k : Name)
  | releaseAll
  | ite (c : Expr) (a b : Stmt)
  | loop (c : Expr) (a : Stmt)
  | call (dest : Option Name) (p : Name) (args : List Expr)
  | ret (e : Expr)
  | raise (msg : String)
  | tryCatch (a : Stmt) (handler : Stmt)
  deriving Repr

/-- Run-time state: `M`, `PCOUNTS`, `PARAMETERS` (vfpfunc.py:55, 1717, 1733), and
two history variables that the code does not have: `started` (the number of
arguments of each call made so far, latest first) and `abandoned` (the number of
calls left by an exception). -/
structure State where
  mem : Mem
  pcounts : List Nat
  parameters : Nat
  started : List Nat := []
  abandoned : Nat := 0
  deriving DecidableEq, Repr

/-- How a statement ends. Python on the code of vfp2py_convert_visitor.py:1907-1910 -/
inductive Outcome where
  | done
  | ret (v : Val)
  | err (e : Err)
  deriving DecidableEq, Repr

/-- `pcount()`, vfpfunc.py:1394-1395, and variable reads. -/
def evalExpr (σ : State) : Expr → Except Err Val
  | .const v => .ok v
  | .var k => σ.mem.getItem k
  | .pcount =>
    match σ.pcounts with
    | [] => .error .indexError
    | n :: _ => .ok (.num n)
  | .parameters => .ok (.num σ.parameters)

/-- The arguments of a call, vfp2py_convert_visitor.py:106-112 -/
def evalArgs (σ : State) : List Expr → Except Err (List Val)
  | [] => .ok []
  | e :: es =>
    match evalExpr σ e with
    | .error x => .error x
    | .ok v =>
      match evalArgs σ es with
      | .error x => .error x
      | .ok vs => .ok (v :: vs)

/-- Which scope function the decorator uses: `parameters` = `M.add_private`,
`lparameters` = `M.add_local` (vfpfunc.py:1773-1777). -/
inductive ParamKind where
  | parameters | lparameters
  deriving DecidableEq, Repr

/-- vfpfunc.py:1773-1777 -/
def ParamKind.scope : ParamKind → Mem.ScopeKind
  | .parameters => .priv
  | .lparameters => .loc

/-- A procedure as emitted by the converter: `@lparameters('a', ...) def p(): ...`. vfp2py_convert_visitor.py:159-187, 376-404 -/
structure ProcDef where
  kind : ParamKind
  params : List Name
  body : Stmt
  deriving Repr

/-- The functions of a module, vfp2py_convert_visitor.py:159-187 -/
abbrev Procs := Name → Option ProcDef

/-- What happens after the wrapped function has come back (`PCOUNTS.pop()`,
`M.popscope()`, `return retval`; vfpfunc.py:1740-1742, 1753-1755, 1763-1765).
There is no `try/finally`: an exception skips the clean-up. -/
def finishCall (r : Outcome) (σ : State) : Outcome × State :=
  match r with
  | .err e => (.err e, { σ with abandoned := σ.abandoned + 1 })
  | _ =>
    match σ.pcounts, σ.mem.pop with
    | _ :: pcs, .ok m =>
      (match r with
        | .ret v => .ret v
        | _ => .ret .null, { σ with mem := m, pcounts := pcs })
    | _, _ => (.err .indexError, { σ with abandoned := σ.abandoned + 1 })

/-- The wrapper `scoper` made by `_parameters` (vfpfunc.py:1727-1771) around the
function `fn`.  The `self` variant (lines 1730-1742) differs only in passing
`self` on and is the same function here.  In the variant without parameter names
(lines 1757-1766) the arguments are passed to `fn`, which was generated as
`def name():` (vfp2py_convert_visitor.py:178-181), so any argument is a
`TypeError`. -/
def scoper (kind : ParamKind) (varnames : List Name)
    (fn : State → Option (Outcome × State)) (args : List Val) (σ : State) :
    Option (Outcome × State) :=
  let σ1 := { σ with mem := σ.mem.push }
  match varnames with
  | [] =>
    let σ2 := { σ1 with parameters := 0, pcounts := 0 :: σ1.pcounts, started := args.length :: σ1.started }
    match args with
    | [] => (fn σ2).map (fun r => finishCall r.1 r.2)
    | _ :: _ => some (finishCall (.err .typeError) σ2)
  | _ =>
    let n := args.length
    let σ2 := { σ1 with parameters := n, pcounts := n :: σ1.pcounts, started := n :: σ1.started }
    let kwargs := (varnames.zip args).foldl (fun acc p => Dict.set acc p.1 p.2) ([] : Frame)
    match σ2.mem.add kind.scope (varnames.drop n) kwargs with
    | .error e => some (finishCall (.err e) σ2)
    | .ok m => (fn { σ2 with mem := m }).map (fun r => finishCall r.1 r.2)

/-- The generated call statement stores the result in a variable or drops it. vfp2py_convert_visitor.py:565-585 -/
def storeResult (dest : Option Name) (v : Val) (σ : State) : Outcome × State :=
  match dest with
  | none => (.done, σ)
  | some k =>
    match σ.mem.setItem k v with
    | .error x => (.err x, σ)
    | .ok m => (.done, { σ with mem := m })

/-- Interpreter for the statement language; `none` means that the step budget
ran out.  Not part of the repository: it is Python executing generated code.
The code is that of vfp2py_convert_visitor.py:159-404 -/
def run (P : Procs) : Nat → Stmt → State → Option (Outcome × State)
  | 0, _, _ => none
  | _ + 1, .skip, σ => some (.done, σ)
  | n + 1, .seq a b, σ =>
    match run P n a σ with
    | some (.done, σ1) => run P n b σ1
    | r => r
  | _ + 1, .assign k e, σ =>
    match evalExpr σ e with
    | .error x => some (.err x, σ)
    | .ok v =>
      match σ.mem.setItem k v with
      | .error x => some (.err x, σ)
      | .ok m => some (.done, { σ with mem := m })
  | _ + 1, .declare kind names kw, σ =>
    match σ.mem.add kind names kw with
    | .error x => some (.err x, σ)
    | .ok m => some (.done, { σ with mem := m })
  | _ + 1, .del k, σ => some (.done, { σ with mem := σ.mem.delItem k })
  | _ + 1, .releaseAll, σ =>
    match σ.mem.release with
    | .error x => some (.err x, σ)
    | .ok m => some (.done, { σ with mem := m })
  | n + 1, .ite c a b, σ =>
    match evalExpr σ c with
    | .error x => some (.err x, σ)
    | .ok v => if v.truthy then run P n a σ else run P n b σ
  | n + 1, .loop c a, σ =>
    match evalExpr σ c with
    | .error x => some (.err x, σ)
    | .ok v =>
      if v.truthy then
        match run P n a σ with
        | some (.done, σ1) => run P n (.loop c a) σ1
        | r => r
      else some (.done, σ)
  | n + 1, .call dest p args, σ =>
    match evalArgs σ args with
    | .error x => some (.err x, σ)
    | .ok vs =>
      match P p with
      | none => some (.err .nameError, σ)
      | some d =>
        match scoper d.kind d.params (run P n d.body) vs σ with
        | some (.ret v, σ1) => some (storeResult dest v σ1)
        | r => r
  | _ + 1, .ret e, σ =>
    match evalExpr σ e with
    | .error x => some (.err x, σ)
    | .ok v => some (.ret v, σ)
  | _ + 1, .raise msg, σ => some (.err (.user msg), σ)
  | n + 1, .tryCatch a h, σ =>
    match run P n a σ with
    | some (.err _, σ1) => run P n h σ1
    | r => r

/-- Calling a procedure from outside with given argument values. vfpfunc.py:1727-1771 -/
def callProc (P : Procs) (fuel : Nat) (d : ProcDef) (args : List Val) (σ : State) :
    Option (Outcome × State) :=
  scoper d.kind d.params (run P fuel d.body) args σ

end Model
