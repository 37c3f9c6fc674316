import Verif.Model.Expr
import Verif.Model.Names
import Verif.Model.PyVal
import Verif.Spec.Blocks
import Verif.Spec.Program
/-!
# Generated programs

The lines that the visitors write for the statements of a procedure, and how Python runs them with
the objects `S` and `M` of the library.  The text of an expression is the token list of
`Model.Expr`, in which the token of a name stands for `S.name`; the structure of the lines is that of
`Model.Blocks`; variables are those of `Model.Names`.

Simplifications: what is printed is kept as values, not as text; the names of procedures are resolved
by a given map (C94, C104); a call is a statement of its own or the whole of the right side of an assignment;
PCOUNT() and PARAMETERS are left out (C05).  All exceptions of lines and conditions are `thrown`, and so is what an operation
outside the part of Python in `PyVal` does; any value stands for the object that CATCH puts into its variable.
-/
namespace Program
open Model (Name Val Mem Frame)
open PyExpr (Tok PyE Reads eval)
open FoxExpr (Ex)
open Blocks (Stmt)
open BlocksSpec (World Out Res PStmt)
open ProgramSpec (Simple Stop)

/-- A simple line of generated code. vfp2py_convert_visitor.py:406-413, 530-585, 1392-1394, 1419-1447, 1907-1910 -/
inductive Line
  /-- `S.x = ..`, `S.x += ..` -/
  | assign (a : Expr.Assign)
  /-- `S.x = S.y = ..` -/
  | assigns (xs : List Name) (e : List Tok)
  /-- `print(.., ..)` -/
  | print (args : List (List Tok))
  /-- `M.add_local('x', ..)` and the like -/
  | declare (kind : Mem.ScopeKind) (xs : List Name)
  /-- `del M.x, M.y, ..` -/
  | del (xs : List Name)
  | brk
  | cont
  /-- `return`, `return ..` -/
  | ret (e : Option (List Tok))
  /-- `p(.., ..)`, `S.x = p(.., ..)` -/
  | call (x : Option Name) (p : Name) (args : List (List Tok))
  /-- `raise Exception(..)` -/
  | raise (e : List Tok)

/-- The line for a statement: `visitAssign` (vfp2py_convert_visitor.py 565-585), `visitPrintStmt`
(403-410), `visitDeclaration` (530-554), `visitProgramControl` (521-528), `visitReturnStmt` (1907-1910),
`visitFuncDo` (1257-1282), `visitRaiseError` (1392-1394), `visitThrowError` (1476-1477), `visitRelease` (1419-1447)
and `func_call` for procedures of the file. Of RELEASE the calls for `this` and `thisform` are left out. -/
def line : Simple → Line
  | .assign x e => .assign (Expr.assign x e)
  | .store e x y xs => .assigns (x :: y :: xs) (Expr.text e)
  | .print es => .print (es.map Expr.text)
  | .locals xs => .declare .loc xs
  | .privates xs => .declare .priv xs
  | .publics xs => .declare .pub xs
  | .release xs => .del (xs.filter fun x => x ≠ "this" && x ≠ "thisform")
  | .exit => .brk
  | .loop => .cont
  | .ret e => .ret (e.map Expr.text)
  | .call x p args => .call x p (args.map Expr.text)
  | .doProc p args => .call none p (args.map Expr.text)
  | .throw e => .raise (Expr.text e)

mutual
/-- The statements with the lines and expressions that the visitors return for their parts; the
arrangement of the lines is `Blocks.generate`. vfp2py_convert_visitor.py:219-225, 427-519 -/
def convert : Stmt Simple Ex String → Stmt Line (List Tok) String
  | .simple ss => .simple (ss.map line)
  | .noise ls => .noise ls
  | .ifS c body els => .ifS (Expr.text c) (converts body) (convertOpt els)
  | .caseS comments cases otherwise => .caseS comments (convertCases cases) (convertOpt otherwise)
  | .whileS c body => .whileS (Expr.text c) (converts body)
  | .forS x a b k body => .forS x (Expr.text a) (Expr.text b) (k.map Expr.text) (converts body)
  | .eachS x c body => .eachS x (Expr.text c) (converts body)
  | .withS body => .withS (converts body)
  | .tryS body catch_ fin => .tryS (converts body) (convertCatch catch_) (convertOpt fin)
/-- vfp2py_convert_visitor.py:497-519 -/
def convertCatch : Option (Option String × Option Ex × List (Stmt Simple Ex String)) →
    Option (Option String × Option (List Tok) × List (Stmt Line (List Tok) String))
  | none => none
  | some (to, when_, ls) => some (to, when_.map Expr.text, converts ls)
/-- vfp2py_convert_visitor.py:439-460 -/
def convertCases : List (Ex × List (Stmt Simple Ex String)) → List (List Tok × List (Stmt Line (List Tok) String))
  | [] => []
  | (c, ls) :: rest => (Expr.text c, converts ls) :: convertCases rest
/-- vfp2py_convert_visitor.py:427-460 -/
def convertOpt : Option (List (Stmt Simple Ex String)) → Option (List (Stmt Line (List Tok) String))
  | none => none
  | some ls => some (converts ls)
/-- vfp2py_convert_visitor.py:219-225 -/
def converts : List (Stmt Simple Ex String) → List (Stmt Line (List Tok) String)
  | [] => []
  | s :: ss => convert s :: converts ss
end

/-! ## Execution -/

/-- The state of a running program: the library's, the lines printed, the value of the last call, and what stands
for the objects of exceptions. vfpfunc.py:850-872, 1712-1716 -/
structure Machine where
  st : Model.Names.State
  out : List (List PyVal.Val)
  result : PyVal.Val
  exc : Val

/-- A stored value as an operand. vfpfunc.py:1032-1040 -/
def ofStored : Val → PyVal.Val
  | .bool b => .bool b
  | .num n => .int n
  | .str s => .str s.toList
  | .null => .none
  | .arr _ => .err

/-- A value as it is stored. vfpfunc.py:1042-1049 -/
def toStored : PyVal.Val → Option Val
  | .bool b => some (.bool b)
  | .int n => some (.num n)
  | .str s => some (.str (String.ofList s))
  | .none => some .null
  | _ => none

/-- The variables that names denote; reading one that does not exist raises. vfpfunc.py:1029-1040 -/
def env (σ : Model.Names.State) (x : String) : PyVal.Val :=
  match Model.Names.readVar σ x with
  | .ok (.value v) => ofStored v
  | _ => .err

open Classical in
/-- The value of the text of an expression. Python on the code of vfp2py_convert_visitor.py:587-1255 -/
noncomputable def evalText (σ : Model.Names.State) (ts : List Tok) : PyVal.Val :=
  if h : ∃ p, Reads ts p then eval (PyVal.py (env σ)) h.choose else .err

/-- `S.x = v`. vfpfunc.py:1042-1049 -/
def storeVar (s : Machine) (x : Name) (v : PyVal.Val) : Option Machine :=
  match toStored v with
  | none => none
  | some w =>
    match Model.Names.assignVar s.st x w with
    | .ok σ => some { s with st := σ }
    | .error _ => none

/-- `S.x = S.y = .. = v`: one after the other. Python on the code of vfp2py_convert_visitor.py:585 -/
def storeVars (v : PyVal.Val) : List Name → Machine → Option Machine
  | [], s => some s
  | x :: xs, s => (storeVar s x v).bind (storeVars v xs)

/-- `S.x = vfpfunc.Exception.from_pyexception(err)`. vfp2py_convert_visitor.py:505-509, vfpfunc.py:1042-1049 -/
def storeExc (s : Machine) (x : Name) : Machine :=
  match Model.Names.assignVar s.st x s.exc with
  | .ok σ => { s with st := σ }
  | .error _ => s

/-- The exception of a failing step, vfp2py_convert_visitor.py:565-585 -/
def orFault (s : Machine) : Option Machine → Out Stop × Machine
  | some s1 => (.normal, s1)
  | none => (.err .thrown, s)

/-- What a call of a function of the program does. vfpfunc.py:1727-1771 -/
abbrev PyCalls := Name → List PyVal.Val → Machine → Out Stop × Machine

/-- Run a simple line. Python on the code of vfp2py_convert_visitor.py:406-413, 530-585, 1392-1394, 1419-1447, 1907-1910;
`del M.x` is `__delattr__` and `__delitem__`, vfpfunc.py:980-986. -/
noncomputable def runLine (call : PyCalls) : Line → Machine → Out Stop × Machine
  | .assign (.plain x ts), s => orFault s (storeVar s x (evalText s.st ts))
  | .assign (.aug x o ts), s =>
    orFault s (storeVar s x (PyVal.bin o (PyVal.name (env s.st) x) (evalText s.st ts)))
  | .assigns xs ts, s => orFault s (storeVars (evalText s.st ts) xs s)
  | .print args, s =>
    if PyVal.Val.err ∈ args.map (evalText s.st) then (.err .thrown, s)
    else (.normal, { s with out := s.out ++ [args.map (evalText s.st)] })
  | .declare kind xs, s =>
    match s.st.mem.add kind xs [] with
    | .ok m => (.normal, { s with st := { s.st with mem := m } })
    | .error _ => (.err .thrown, s)
  | .del xs, s => (.normal, { s with st := { s.st with mem := xs.foldl Mem.delItem s.st.mem } })
  | .brk, s => (.exit, s)
  | .cont, s => (.loop, s)
  | .ret none, s => (.ret, { s with result := .none })
  | .ret (some ts), s =>
    if evalText s.st ts = .err then (.err .thrown, s) else (.ret, { s with result := evalText s.st ts })
  | .call x p args, s =>
    if PyVal.Val.err ∈ args.map (evalText s.st) then (.err .thrown, s)
    else
      match call p (args.map (evalText s.st)) s with
      | (.normal, s1) =>
        match x with
        | none => (.normal, s1)
        | some x => orFault s1 (storeVar s1 x s1.result)
      | r => r
  | .raise _, s => (.err .thrown, s)

/-- `if ..:`, `while ..:`. Python on the code of vfp2py_convert_visitor.py:427-437, 476-480 -/
noncomputable def runCond (ts : List Tok) (s : Machine) : Except Stop Bool × Machine :=
  if evalText s.st ts = .err then (.error .thrown, s) else (.ok (PyVal.truth (evalText s.st ts)), s)

/-- `int(..)` in `range(..)`. Python on the code of vfp2py_convert_visitor.py:462-471 -/
noncomputable def runInt (ts : List Tok) (s : Machine) : Except Stop Int × Machine :=
  match evalText s.st ts with
  | .int n => (.ok n, s)
  | .bool b => (.ok (if b then 1 else 0), s)
  | _ => (.error .thrown, s)

/-- Python running the lines of a procedure.  `for S.x in ..` assigns the variable (there is no
FOR EACH in the programs that theorems are about).
Python on the code of vfp2py_convert_visitor.py:219-225, 427-519 -/
noncomputable def world (call : PyCalls) : World Line (List Tok) String Unit Stop Machine where
  simple := runLine call
  cond := runCond
  bind x _ s := storeExc s x
  num := runInt
  setNum x i s := (storeVar s x (.int i)).getD s
  items _ s := (.error .fault, s)
  setItem _ _ s := s
  zeroStep := .fault

/-- A function of the generated module: its decorator (`lparameters` or `parameters`), the names in it
and the statements of its body. vfp2py_convert_visitor.py:376-404 -/
structure PyProc where
  kind : Mem.ScopeKind
  params : List Name
  body : List (PStmt Line (List Tok) String)

/-- Arguments as stored values. vfpfunc.py:1746-1758 -/
def storedAll : List PyVal.Val → Option (List Val)
  | [] => some []
  | v :: vs => (toStored v).bind fun w => (storedAll vs).map (w :: ·)

/-- The function `scoper` of the decorators (vfpfunc.py:1727-1771): a new level of variables, the
parameters in it, the body, and the level removed unless an exception passes. -/
noncomputable def pyCall (n : Nat) (call : PyCalls) (d : PyProc) (args : List PyVal.Val) (s : Machine) : Out Stop × Machine :=
  match storedAll args with
  | none => (.err .fault, s)
  | some ws =>
    if d.params = [] ∧ ws ≠ [] then (.err .fault, s)
    else
      match s.st.mem.push.add d.kind (d.params.drop ws.length)
          ((d.params.zip ws).foldl (fun acc p => Py.Dict.set acc p.1 p.2) ([] : Frame)) with
      | .error _ => (.err .fault, s)
      | .ok m =>
        match BlocksSpec.pys (world call) n none d.body { s with st := { s.st with mem := m } } with
        | none => (.err .bound, s)
        | some (.err e, s1) => (.err e, s1)
        | some (.exit, s1) => (.err .fault, s1)
        | some (.loop, s1) => (.err .fault, s1)
        | some (.normal, s1) =>
          match s1.st.mem.pop with
          | .ok m1 => (.normal, { s1 with st := { s1.st with mem := m1 }, result := .none })
          | .error _ => (.err .fault, s1)
        | some (.ret, s1) =>
          match s1.st.mem.pop with
          | .ok m1 => (.normal, { s1 with st := { s1.st with mem := m1 } })
          | .error _ => (.err .fault, s1)

/-- Calls of the functions of a module, at most `k` deep. vfpfunc.py:1727-1771 -/
noncomputable def pyCalls (procs : Name → Option PyProc) (n : Nat) : Nat → PyCalls
  | 0 => fun _ _ s => (.err .bound, s)
  | k + 1 => fun p vs s =>
    match procs p with
    | none => (.err .fault, s)
    | some d => pyCall n (pyCalls procs n k) d vs s

/-- The library when a program starts: `M` with one dictionary of public variables, in which there is the
main window, and one of local variables (vfpfunc.py:943-946, 1722-1724), no table open, for given
functions of other modules.  The window and the objects of exceptions are any values. -/
def start (screen exc : Val) (fields : Model.Database.Str → List Name) (functions : List Name) : Machine where
  st := ⟨⟨[[("_screen", screen)]], [[]]⟩, [], Model.Database.initial, fields, functions, .intact, .intact⟩
  out := []
  result := .none
  exc := exc

end Program
