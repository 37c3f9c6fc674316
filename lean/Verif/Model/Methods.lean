/-!
# Methods of objects: parameters, THIS and DODEFAULT

Sources: `/repo/vfp2py/vfpfunc.py`, `_parameters` (1725-1773), `parameters`/`lparameters`
(1773-1777), `vfpclass` (1779-1787), `Custom` (150-183, 774-775);
`/repo/vfp2py/vfp2py_convert_visitor.py`, `visitClassDef` (239-325: every method becomes
`def name(self):` with the decorator of its parameters), `visitFuncDef` (376-404: `FUNCNAME`),
`visitScanStmt` (488-495), `visitTryStmt` (497-519), `visitDeclaration` (530-554) and `dodefault` in
`func_call` (652-653).

Simplifications: a method reads only constants, its own parameters and properties of its object;
the values are numbers, `.F.` and the object; arrays are declared but not used; SCAN runs over a
table of a given number of records; the classes of an object are given as the list of the classes
written in FoxPro, most derived first (`BaseClass = ...Type()` makes single inheritance, so the
method resolution order of Python is this list followed by the class of the runtime); of the class
of the runtime only the names of its methods count, which do nothing (`init`).  The stack of
variables is left out (C01-C08).  Python is one of the versions 3.0 to 3.11: in 3.12 and later (and
in Python 2) a list comprehension in the body is one more variable.
-/
namespace Model.Methods

/-- Names of methods, parameters and properties, vfp2py_convert_visitor.py:376-404 -/
abbrev Name := String

/-- Arguments of methods, vfpfunc.py:1727-1771 -/
inductive Val where
  | num (n : Int)
  /-- `.F.` -/
  | no
  /-- The object whose method runs. -/
  | this
  deriving DecidableEq, Repr

/-- Arguments in a call, vfp2py_convert_visitor.py:587-592 -/
inductive Arg where
  | lit (n : Int)
  /-- A parameter. -/
  | par (x : Name)
  /-- `THIS.p`. -/
  | prop (p : Name)
  deriving DecidableEq, Repr

/-- The lines of a method in FoxPro. vfp2py_convert_visitor.py:219-225, 427-519 -/
inductive Code where
  | skip
  /-- `? a` -/
  | say (a : Arg) (rest : Code)
  /-- `THIS.p = a` -/
  | store (p : Name) (a : Arg) (rest : Code)
  /-- `THIS.m(args)` -/
  | call (m : Name) (args : List Arg) (rest : Code)
  /-- `DODEFAULT(args)` -/
  | default (args : List Arg) (rest : Code)
  /-- `DIMENSION x[...]` -/
  | dim (x : Name) (rest : Code)
  /-- SCAN ... ENDSCAN over a table of `n` records. -/
  | scan (n : Nat) (body rest : Code)
  /-- TRY ... CATCH [TO x] ... ENDTRY. -/
  | attempt (to : Bool) (body handler rest : Code)
  deriving Repr

/-- A method with the name in its header: one name, or `o.m` for the method `m` of a member object
`o`, which is put as `m` into a nested class made for the object (vfp2py_convert_visitor.py:259-273,
296-308). -/
structure Method where
  header : List Name
  params : List Name
  body : Code
  deriving Repr

/-- The methods of one class (C75: one for each name), with the names they have in Python. -/
abbrev Cls := List (Name × Method)

/-- The generated lines of a method. vfp2py_convert_visitor.py:219-225, 427-519 -/
inductive PyCode where
  | skip
  | print (a : Arg) (rest : PyCode)
  /-- `self.p = a` -/
  | setattr (p : Name) (a : Arg) (rest : PyCode)
  /-- `self.m(args)` -/
  | selfCall (m : Name) (args : List Arg) (rest : PyCode)
  /-- `super(type(self), self).path(args)` -/
  | superCall (path : List Name) (args : List Arg) (rest : PyCode)
  /-- `x = Array(...)` -/
  | assign (x : Name) (rest : PyCode)
  /-- `for _ in DB.scanner(...):` -/
  | forUnderscore (n : Nat) (body rest : PyCode)
  /-- `try: ... except Exception [as err]: ...` -/
  | tryExcept (named : Bool) (body handler rest : PyCode)
  deriving Repr

/-- The visitors of the statements; `funcname` is the global `FUNCNAME`, the name in the header of
the method (vfp2py_convert_visitor.py:400-401), `o.m` for the method of a member object. -/
def convert (funcname : List Name) : Code → PyCode
  | .skip => .skip
  | .say a rest => .print a (convert funcname rest)
  | .store p a rest => .setattr p a (convert funcname rest)
  | .call m args rest => .selfCall m args (convert funcname rest)
  | .default args rest => .superCall funcname args (convert funcname rest)
  | .dim x rest => .assign x (convert funcname rest)
  | .scan n body rest => .forUnderscore n (convert funcname body) (convert funcname rest)
  | .attempt to body handler rest =>
    .tryExcept to (convert funcname body) (convert funcname handler) (convert funcname rest)

/-- The names that are assigned in a generated function and so are its variables in Python:
`_` of the loop (495), `err` of the handler (508), the array (554).  `S.x = ...` and `self.p = ...`
assign attributes. -/
def localsOf : PyCode → List Name
  | .skip => []
  | .print _ rest | .setattr _ _ rest | .selfCall _ _ rest | .superCall _ _ rest => localsOf rest
  | .assign x rest => x :: localsOf rest
  | .forUnderscore _ body rest => "_" :: (localsOf body ++ localsOf rest)
  | .tryExcept named body handler rest =>
    localsOf body ++ (if named then ["err"] else []) ++ localsOf handler ++ localsOf rest

/-- `fn.__code__.co_varnames` of `def name(self):`, used by vfpfunc.py:1727: the arguments, then the
other variables, each once. -/
def coVarnames (body : PyCode) : List Name :=
  (localsOf body).foldl (fun l x => if x ∈ l then l else l ++ [x]) ["self"]

/-- The parameters of a method, vfpfunc.py:1727-1771 -/
abbrev Env := List (Name × Val)

/-- `kwargs = {name: arg for name, arg in zip(varnames, args)}`, `args = varnames[len(args):]`,
`scope_func(*args, **kwargs)`, vfpfunc.py:1734-1737: the names beyond the arguments are `False`. -/
def bindParams : List Name → List Val → Env
  | [], _ => []
  | x :: xs, [] => (x, .no) :: bindParams xs []
  | x :: xs, v :: vs => (x, v) :: bindParams xs vs

/-- The three forms of `scoper`, vfpfunc.py:1728-1768: what the function is called with and the
variables it finds; `none` when the call of `scoper` itself fails. -/
def scoper (fnArgs varnames : List Name) (args : List Val) : Option (List Val × Env) :=
  if fnArgs = ["self"] ∧ varnames ≠ [] then
    match args with
    | [] => none
    | self :: rest => some ([self], bindParams varnames rest)
  else if varnames ≠ [] then some ([], bindParams varnames args)
  else some (args, [])

/-- What a program shows and the properties of the object. Python on the code of vfp2py_convert_visitor.py:239-325 -/
structure St where
  props : List (Name × Val)
  out : List Val
  deriving DecidableEq, Repr

/-- Python on the code of vfp2py_convert_visitor.py:1907-1910 -/
inductive Res where
  | ok (σ : St)
  /-- An exception. -/
  | err (σ : St)
  deriving DecidableEq, Repr

/-- Python on the code of vfp2py_convert_visitor.py:587-592 -/
def eval (env : Env) (σ : St) : Arg → Option Val
  | .lit n => some (.num n)
  | .par x => env.lookup x
  | .prop p => σ.props.lookup p

/-- Python on the code of vfp2py_convert_visitor.py:587-592 -/
def evalAll (env : Env) (σ : St) (args : List Arg) : Option (List Val) := args.mapM (eval env σ)

/-- `n` rounds of a loop. Python on the code of vfp2py_convert_visitor.py:462-495 -/
def rounds (body : St → Option Res) : Nat → St → Option Res
  | 0, σ => some (.ok σ)
  | n + 1, σ =>
    match body σ with
    | some (.ok σ') => rounds body n σ'
    | r => r

/-- Continue with `next` when `r` is a normal end. Python on the code of vfp2py_convert_visitor.py:219-225 -/
def andThen (r : Option Res) (next : St → Option Res) : Option Res :=
  match r with
  | some (.ok σ) => next σ
  | r => r

/-- Execution of generated lines. `own m` and `parent m` call the method `m` of the object as
`self.m` and `super(type(self), self).m`. An attribute of an attribute of `super(...)` does not
exist: `super` finds attributes of classes only, and the classes have methods only.
The code of vfp2py_convert_visitor.py:239-325 -/
def exec (own parent : Name → List Val → St → Option Res) (env : Env) : PyCode → St → Option Res
  | .skip, σ => some (.ok σ)
  | .print a rest, σ =>
    match eval env σ a with
    | some v => exec own parent env rest { σ with out := σ.out ++ [v] }
    | none => some (.err σ)
  | .setattr p a rest, σ =>
    match eval env σ a with
    | some v => exec own parent env rest { σ with props := (p, v) :: σ.props }
    | none => some (.err σ)
  | .selfCall m args rest, σ =>
    match evalAll env σ args with
    | some vs => andThen (own m vs σ) (exec own parent env rest)
    | none => some (.err σ)
  | .superCall path args rest, σ =>
    match path, evalAll env σ args with
    | [m], some vs => andThen (parent m vs σ) (exec own parent env rest)
    | _, _ => some (.err σ)
  | .assign _ rest, σ => exec own parent env rest σ
  | .forUnderscore n body rest, σ =>
    andThen (rounds (exec own parent env body) n σ) (exec own parent env rest)
  | .tryExcept _ body handler rest, σ =>
    match exec own parent env body σ with
    | some (.err σ') => andThen (exec own parent env handler σ') (exec own parent env rest)
    | r => andThen r (exec own parent env rest)

/-- The first class of the list that has the method. Attribute lookup on the classes of vfp2py_convert_visitor.py:239-325 -/
def find (search : List Cls) (m : Name) : Option Method := search.findSome? (·.lookup m)

/-- `x.m(args)` where `m` is looked up in the classes `search` and then in the class of the runtime,
for an object of the classes `chain`; at most `fuel` calls deep, `none` when that is not enough.
(Python ends a call that is too deep by a RecursionError.). vfpfunc.py:1727-1771 -/
def invoke (native : Name → Bool) (chain : List Cls) : Nat → List Cls → Name → List Val → St → Option Res
  | 0, _, _, _, _ => none
  | fuel + 1, search, m, args, σ =>
    match find search m with
    | some f =>
      let body := convert f.header f.body
      match scoper (coVarnames body) f.params (.this :: args) with
      | some ([_], env) =>
        exec (invoke native chain fuel chain) (invoke native chain fuel chain.tail) env body σ
      | _ => some (.err σ)
    | none => some (if native m then .ok σ else .err σ)

end Model.Methods
