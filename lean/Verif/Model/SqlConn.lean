/-!
# Connections to data sources

`sqlconnect`, `sqlstringconnect`, `sqlexec` (its effect on the data source), `sqlcommit`, `sqlrollback` and
`sqldisconnect`, vfpfunc.py:1510-1527, 1561-1575, 1584-1585, over connections of the package `pyodbc`, which is not part of
the repository.  What is used of it (trusted base): `connect` raises when there is no connection and starts
a connection without automatic commit; a statement that fails raises and changes nothing; `commit` makes the
changes last; `rollback` takes back what was not committed, and so does `close`; a closed connection raises.

The data of the source are a value of any type; one connection at a time is looked at.
-/
namespace Model.SqlConn

/-- A value of the program. vfpfunc.py:1510-1585 -/
inductive Val where
  | num (n : Int)
  | connection
  | none_
  deriving DecidableEq, Repr

/-- The data that last, and those that the open connection sees. vfpfunc.py:1510-1585 -/
structure Source (σ : Type) where
  data : σ
  work : Option σ
  deriving DecidableEq, Repr

/-- vfpfunc.py:1510-1585 -/
inductive Cmd (σ : Type) where
  /-- SQLCONNECT, SQLSTRINGCONNECT; whether the source can be reached. -/
  | connect (reachable : Bool)
  /-- SQLEXEC; `none`: the statement fails. -/
  | exec (f : σ → Option σ)
  | commit
  | rollback
  | disconnect

variable {σ : Type}

/-- A function of the library: its value (`none`: an exception) and the source afterwards. vfpfunc.py:1510-1585 -/
def step (s : Source σ) : Cmd σ → Source σ × Option Val
  | .connect r => if r then ({ s with work := some s.data }, some .connection) else (s, none)  -- :1517-1527
  | .exec f =>                                                                                -- :1561-1567
    match s.work.bind f with
    | some d => ({ s with work := some d }, some (.num 1))
    | none => (s, some (.num (-1)))
  | .commit =>                                                                                -- :1510-1515
    match s.work with
    | some d => ({ s with data := d }, some (.num 1))
    | none => (s, some (.num (-1)))
  | .rollback =>                                                                              -- :1569-1574
    match s.work with
    | some _ => ({ s with work := some s.data }, some (.num 1))
    | none => (s, some (.num (-1)))
  | .disconnect => ({ s with work := none }, some .none_)                                       -- :1584-1585

/-- The commands of a program. Repeated vfpfunc.py:1510-1585 -/
def run (s : Source σ) (h : List (Cmd σ)) : Source σ := h.foldl (fun s c => (step s c).1) s

/-- `v > 0` in Python; `none` is TypeError. The test of a program on the values of vfpfunc.py:1510-1585 -/
def positive : Val → Option Bool
  | .num n => some (decide (n > 0))
  | _ => none

end Model.SqlConn
