import Verif.Model.CreateTable
/-!
# SQLEXEC

Sources: `/repo/vfp2py/vfpfunc.py`, `_odbc_cursor_to_db` (1529-1559), `sqlexec` (1561-1567),
`sqltables` (1577-1582); `/repo/vfp2py/vfpdatabase.py`, `create_table` (99-102), `insert` (162-177),
`goto` (185-188).

What the driver does with the command is given: an exception, or a description of the columns and the
rows.  `fits` tells which rows the package `dbf` stores under which columns; the others raise.  The
format of the descriptions of columns is that of `Model.CreateTable`.  The rows are kept in the open
table; the file has the columns.
-/
namespace Model.SqlExec
open Model.Database Model.CreateTable

/-- The types of Python by which `pyodbc` describes columns; dates, times, decimal numbers and bytes are
`other`. vfpfunc.py:1529-1559 -/
inductive PyType where
  | int | str | bool | float | other
  deriving DecidableEq, Repr

/-- `cursor_description`: name, type, precision and scale. vfpfunc.py:1529-1559 -/
structure Info where
  name : Str
  type : PyType
  precision : Nat
  scale : Nat
  deriving DecidableEq, Repr

/-- The description of a column, vfpfunc.py:1538-1553; another type is a KeyError.  The precision and
scale are formatted as a tuple. -/
def spec (c : Info) : Option Str :=
  let name := c.name.take 10
  match c.type with
  | .int | .float => some (name ++ [' ', 'N', '('] ++ Nat.toDigits 10 c.precision ++ [',', ' '] ++ Nat.toDigits 10 c.scale ++ [')'])
  | .bool => some (name ++ [' ', 'L'])
  | .str => some (name ++ [' ', 'C', '('] ++ Nat.toDigits 10 c.precision ++ [')'])
  | .other => none

variable {ρ : Type} [DecidableEq ρ]

/-- `for value in values: DB.insert(cursor_name, tuple(value))`. vfpfunc.py:1529-1559 -/
def insertRows (fits : ρ → Bool) (name : Str) : List ρ → DB ρ → DB ρ × Option Err
  | [], db => (db, none)
  | r :: rs, db =>
    if fits r then
      match insertInto db (.str name) [r] with
      | (db, some e) => (db, some e)
      | (db, none) => insertRows fits name rs db
    else (db, some .valueError)

/-- vfpfunc.py:1529-1559 -/
def extension : Str := ['.', 'd', 'b', 'f']

/-- `_odbc_cursor_to_db`, vfpfunc.py:1529-1559: every exception ends it and is swallowed. -/
def toCursor (accepts : Char → Nat → Bool) (fits : List Column → ρ → Bool) (w : World ρ) (info : List Info) (rows : List ρ) (name : Str) : World ρ :=
  let name := if name = [] then "sqlresult".toList else name
  if rows = [] then w
  else
    match info.mapM spec with
    | none => w
    | some texts =>
      match useClose w.db (.num (selectFunction w.db (.str name))) with
      | (db, some _) => { w with db := db }
      | (db, none) =>
        match texts.mapM (column accepts) with
        | none => { w with db := db }
        | some cols =>
          let w := { w with db := db }.store (name ++ extension) cols []
          match useOpen w.load w.db (name ++ extension) (.num 0) [] with
          | (db, some _) => { w with db := db }
          | (db, none) =>
            match insertRows (fits cols) name rows db with
            | (db, some _) => { w with db := db }
            | (db, none) => { w with db := (gotoCmd db (.str name) 0).1 }

/-- What the driver answers. vfpfunc.py:1561-1567 -/
inductive Answer (ρ : Type) where
  | error
  | result (info : List Info) (rows : List ρ)

/-- `sqlexec` (and `sqltables`), vfpfunc.py:1561-1582. -/
def sqlexec (accepts : Char → Nat → Bool) (fits : List Column → ρ → Bool) (w : World ρ) (name : Str) : Answer ρ → World ρ × Int
  | .error => (w, -1)
  | .result info rows => (toCursor accepts fits w info rows name, 1)

end Model.SqlExec
