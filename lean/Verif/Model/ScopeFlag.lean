/-!
# The flag `scope` of the converter

`visit_with_disabled_scope` (`/repo/vfp2py/vfp2py_convert_visitor.py` 145-149) sets a flag, visits a part of a
statement and sets the flag back, but not when the visit raises an exception; `visitLine` (189-203)
catches the exception and goes on with the next statement.  `scopeId` (972-986) writes a name as it is
while the flag is off, and `visitIdentTrailer` (1019-1022) uses `visit_with_disabled_scope` itself.

Simplifications: expressions are constants, names, members of names, calls with a list of arguments and
binary operations other than `+` and comparisons (they visit their operands from left to right, once);
the statements are assignments to names, calls, RELEASE, DIMENSION and REPLACE; names are not THIS or
THISFORM and are valid in Python.  What makes a call raise an exception (C125) is a parameter.
-/
namespace Model.ScopeFlag

/-- Expressions, as visited by vfp2py_convert_visitor.py:587-630, 1014-1122 -/
inductive Ex where
  | const (text : String)
  | name (n : String)
  /-- `n.m.ms` -/
  | member (n m : String) (ms : List String)
  /-- A call of a function; whether `func_call` raises an exception. -/
  | call (f : String) (raises : Bool) (args : Ex)
  /-- Two arguments. -/
  | comma (a b : Ex)
  | op (o : String) (a b : Ex)
  deriving DecidableEq, Repr

/-- The generated code: `var true n ms` is `S.n.ms`, `var false n ms` is `n.ms`. vfp2py_convert_visitor.py:972-1012 -/
inductive Code where
  | const (text : String)
  | var (fox : Bool) (n : String) (ms : List String)
  | call (f : String) (args : Code)
  | comma (a b : Code)
  | op (o : String) (a b : Code)
  deriving DecidableEq, Repr

/-- The flag afterwards, and the code or `none` for an exception. vfp2py_convert_visitor.py:587-630, 972-1122 -/
def visit : Ex → Bool → Bool × Option Code
  | .const t, s => (s, some (.const t))
  | .name n, s => (s, some (.var s n []))                     -- :976-979
  -- the trailer is visited first (:1098, :1021), and `createIdAttr` follows (:1109)
  | .member n m ms, _ => (true, some (.var true n (m :: ms)))
  | .call f r a, s =>
    match visit a s with
    | (s', none) => (s', none)
    | (s', some c) => (s', if r then none else some (.call f c))
  | .comma a b, s =>
    match visit a s with
    | (s', none) => (s', none)
    | (s', some c) =>
      match visit b s' with
      | (s'', none) => (s'', none)
      | (s'', some d) => (s'', some (.comma c d))
  | .op o a b, s =>
    match visit a s with
    | (s', none) => (s', none)
    | (s', some c) =>
      match visit b s' with
      | (s'', none) => (s'', none)
      | (s'', some d) => (s'', some (.op o c d))

/-- `visit_with_disabled_scope`, vfp2py_convert_visitor.py:145-149 -/
def disabled (e : Ex) : Bool × Option Code :=
  match visit e false with
  | (_, some c) => (true, some c)
  | (s, none) => (s, none)

/-- Statements, vfp2py_convert_visitor.py:530-588, 1419-1447, 1598-1609 -/
inductive Stmt where
  | assign (n : String) (value : Ex)
  | call (e : Ex)
  | release (args : Ex)
  | dimension (n : String) (index : Ex)
  | replace (field value : Ex)
  deriving DecidableEq, Repr

/-- A converted line, or the comment `#FIX ME` (`none`). vfp2py_convert_visitor.py:189-203 -/
abbrev Line := Option (List Code)

/-- `visitLine` with the visitors of the statements. vfp2py_convert_visitor.py:189-203 -/
def convert : Stmt → Bool → Bool × Line
  | .assign n e, s =>                                                   -- :565-575
    match visit e s with
    | (s', none) => (s', none)
    | (s', some c) => (s', some [.var s' n [], c])
  | .call e, s =>
    match visit e s with
    | (s', none) => (s', none)
    | (s', some c) => (s', some [c])
  | .release e, _ =>                                                    -- :1423
    match disabled e with
    | (s', none) => (s', none)
    | (s', some c) => (s', some [c])
  | .dimension n e, _ =>                                                -- :536-537
    match disabled e with
    | (s', none) => (s', none)
    | (s', some _) =>
      match visit e s' with
      | (s'', none) => (s'', none)
      | (s'', some c) => (s'', some [.var false n [], c])
  | .replace f e, s =>                                                  -- :1599-1600
    match visit e s with
    | (s', none) => (s', none)
    | (_, some c) =>
      match disabled f with
      | (s'', none) => (s'', none)
      | (s'', some d) => (s'', some [d, c])

/-- `visitLines`: the statements one after the other. vfp2py_convert_visitor.py:219-225 -/
def program : List Stmt → Bool → List Line
  | [], _ => []
  | st :: rest, s => (convert st s).2 :: program rest (convert st s).1

end Model.ScopeFlag
