/-!
# ON ERROR

`visitOnStmt` and `on_event`, vfp2py_convert_visitor.py:1345-1390: `ON ERROR command` becomes
`vfpfunc.error_func = lambda: ..`, and nothing in the library reads `error_func` (vfpfunc.py:1721 is the only
other line with it).
-/
namespace Model.OnError

/-! ## The command of a handler -/

/-- A target of an assignment in generated code: `S.x` or `a.x` is an attribute, `a[..]` a subscript.
vfp2py_convert_visitor.py:1353-1367 -/
inductive Target where
  | attribute (x : String)
  | subscript (x : String) (i : Nat)
  deriving DecidableEq, Repr

/-- Values of variables and of elements. What the code of vfp2py_convert_visitor.py:1345-1367 changes -/
abbrev Vars := Target → Int

/-- The effect of an assignment in the code of vfp2py_convert_visitor.py:565-585 -/
def assign (t : Target) (v : Int) (s : Vars) : Vars := fun u => if u = t then v else s u

/-- A command, by the Python line it is converted to: an expression, with its effect; an assignment to
targets, plain or augmented (`x += ..`, see `Model.Expr.assign`); another statement, like `return`.
vfp2py_convert_visitor.py:1345-1367 -/
inductive Cmd where
  | expression (effect : Vars → Vars)
  | assign (targets : List Target) (value : Vars → Int)
  | augmented (target : Target) (value : Vars → Int)
  | statement (effect : Vars → Vars)

/-- An expression of the function: a call of something, or `setattr(..)` of a value. vfp2py_convert_visitor.py:1345-1367 -/
inductive Part where
  | call (effect : Vars → Vars)
  | setattr (x : String) (value : Vars → Int)

/-- What `on_event` makes: a function, whose expression is parts joined by `and`; an exception during the
conversion (`AugAssign` has no `targets`; `slice` has no `value` since Python 3.9); or text that is not Python
(`lambda: return`). vfp2py_convert_visitor.py:1345-1367 -/
inductive Handler where
  | function (parts : List Part)
  | conversionFails
  | notPython

/-- The part for one target, 1356-1362. -/
def part (v : Vars → Int) : Target → Option Part
  | .attribute x => some (.setattr x v)
  | .subscript _ _ => none

/-- `on_event`, 1345-1367. -/
def onEvent : Cmd → Handler
  | .expression f => .function [.call f]
  | .statement _ => .notPython
  | .augmented _ _ => .conversionFails
  | .assign ts v =>
    match ts.mapM (part v) with
    | some parts => .function parts
    | none => .conversionFails

/-- Evaluation of `part and part and ..`: `setattr` returns None, after which the rest is not evaluated.
Python on the code of vfp2py_convert_visitor.py:1345-1367 -/
def evaluate : List Part → Vars → Vars
  | [], s => s
  | .call f :: _, s => f s
  | .setattr x v :: _, s => assign (.attribute x) (v s) s

/-! ## Programs -/

/-- Programs over a state: a statement changes the state or raises an error.
vfp2py_convert_visitor.py:219-225, 497-519, 1369-1390 -/
inductive Stmt (σ ε : Type) where
  | act (f : σ → Except ε σ)
  | onError (h : Option (σ → Except ε σ))
  | call (body : List (Stmt σ ε))
  | tryS (body handler : List (Stmt σ ε))

/-- The running program: the variables and `vfpfunc.error_func`. vfpfunc.py:1721 -/
structure Machine (σ ε : Type) where
  vars : σ
  error_func : Option (σ → Except ε σ)

mutual
/-- Python running the generated program: an exception ends everything up to the next `try`.
vfp2py_convert_visitor.py:219-225, 497-519 -/
def run {σ ε : Type} : Stmt σ ε → Machine σ ε → Machine σ ε × Option ε
  | .act f, m =>
    match f m.vars with
    | .ok s => ({ m with vars := s }, none)
    | .error e => (m, some e)
  | .onError h, m => ({ m with error_func := h }, none)
  | .call body, m => runs body m
  | .tryS body handler, m =>
    match runs body m with
    | (m1, none) => (m1, none)
    | (m1, some _) => runs handler m1
/-- vfp2py_convert_visitor.py:219-225 -/
def runs {σ ε : Type} : List (Stmt σ ε) → Machine σ ε → Machine σ ε × Option ε
  | [], m => (m, none)
  | s :: ss, m =>
    match run s m with
    | (m1, none) => runs ss m1
    | (m1, some e) => (m1, some e)
end

end Model.OnError
