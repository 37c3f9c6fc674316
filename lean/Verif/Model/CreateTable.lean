import Verif.Model.Database
/-!
# CREATE TABLE and ALTER TABLE

Sources: `/repo/vfp2py/vfp2py_convert_visitor.py`, `visitCreateTable` (1479-1489), `visitTableField`
(1491-1498), `visitAlterTable` (1500-1506), `visitIdentifier` (1396-1402);
`/repo/vfp2py/vfpdatabase.py`, `create_table` (99-102), `alter_table` (104-108).

The package `dbf` is not part of the repository.  `columns` is its documented format for the
description of fields: `name type` or `name type(numbers)`, joined by semicolons, where the type is
one letter; `accepts` tells for which types it takes how many numbers.  Kinds of exceptions are not
told apart where the package raises them.  Widths are numbers written out, the only ones FoxPro
takes.  Values of records are not looked at.
-/
namespace Model.CreateTable
open Model.Database (Str Err DB WS tableFile useOpen tableInfo Sel)

/-- A field as it stands in the statement. vfp2py_convert_visitor.py:1491-1498; VisualFoxpro9.g4 rule `tableField` -/
structure Field where
  name : Str
  type : Str
  size : Option (List Nat)

/-- `visitIdentifier`, vfp2py_convert_visitor.py:1396-1402. -/
def identifier (s : Str) : Str :=
  let t := Model.Database.lower s
  if t = "class".toList then "classtype".toList else t

/-- `sep.join(list)`, vfp2py_convert_visitor.py:1487, 1503 -/
def join (sep : Str) : List Str → Str
  | [] => []
  | [x] => x
  | x :: y :: l => x ++ sep ++ join sep (y :: l)

/-- `visitTableField`, vfp2py_convert_visitor.py:1491-1498; `or (1,)`: a size has at least one
number. -/
def fieldText (f : Field) : Str :=
  let name := identifier f.name
  let type := identifier f.type
  let size := f.size.getD [1]
  if type.map Char.toUpper = ['L'] ∧ size = [1] then name ++ [' '] ++ type
  else name ++ [' '] ++ type ++ ['('] ++ join [',', ' '] (size.map (Nat.toDigits 10)) ++ [')']

/-- `'; '.join(self.visit(f) for f in ctx.tableField())`, vfp2py_convert_visitor.py:1487. -/
def setupString (fs : List Field) : Str := join [';', ' '] (fs.map fieldText)

/-! ## The package -/

/-- A field of a table of the package `dbf`, used by vfpdatabase.py:99-108 -/
structure Column where
  name : Str
  type : Char
  width : Nat
  decimals : Nat
  deriving DecidableEq, Repr

/-- `text.split(sep)`. Part of the package `dbf`, called by vfpdatabase.py:101, 106 -/
def split (sep : Char) : Str → List Str
  | [] => [[]]
  | c :: s =>
    if c = sep then [] :: split sep s
    else
      match split sep s with
      | [] => [[c]]
      | x :: l => (c :: x) :: l

/-- `text.lstrip()`, for blanks. Part of the package `dbf`, called by vfpdatabase.py:101, 106 -/
def lstrip : Str → Str
  | ' ' :: s => lstrip s
  | s => s

/-- `int(text)`. Part of the package `dbf`, called by vfpdatabase.py:101, 106 -/
def number (s : Str) : Option Nat :=
  let s := lstrip s
  if s ≠ [] ∧ s.all Char.isDigit then some (s.foldl (fun n c => 10 * n + (c.toNat - 48)) 0) else none

/-- The numbers in parentheses. Part of the package `dbf`, called by vfpdatabase.py:101, 106 -/
def numbers : Str → Option (List Nat)
  | [] => some []
  | '(' :: s => if s.getLast? = some ')' then (split ',' s.dropLast).mapM number else none
  | _ => none

/-- One field of the description given to the package `dbf` by vfpdatabase.py:101, 106 -/
def column (accepts : Char → Nat → Bool) (text : Str) : Option Column :=
  let text := lstrip text
  let name := text.takeWhile (· ≠ ' ')
  match text.drop (name.length + 1) with
  | [] => none
  | t :: s =>
    match numbers s with
    | none => none
    | some ns =>
      if name ≠ [] ∧ accepts t.toUpper ns.length = true then some ⟨name, t.toUpper, ns.headD 0, (ns.drop 1).headD 0⟩ else none

/-- The description given to the package `dbf` by vfpdatabase.py:101, 106 -/
def columns (accepts : Char → Nat → Bool) (text : Str) : Option (List Column) := (split ';' text).mapM (column accepts)

/-! ## The commands -/

variable {ρ : Type} [DecidableEq ρ]

/-- The tables on disk, by file name, with their columns and records, and the open tables. What vfpdatabase.py:99-108 work on -/
structure World (ρ : Type) where
  disk : Str → Option (List Column × List ρ)
  db : DB ρ

/-- vfp2py_convert_visitor.py:1480-1484 -/
inductive Kind where
  | table
  | dbf
  | cursor
  deriving DecidableEq, Repr

/-- The records found when a table is opened. vfpdatabase.py:13-23 -/
def World.load (w : World ρ) (name : Str) : List ρ := ((w.disk (tableFile name)).map Prod.snd).getD []

/-- The effect of `dbf.Table(name, fields)`, vfpdatabase.py:101 -/
def World.store (w : World ρ) (name : Str) (cols : List Column) (recs : List ρ) : World ρ :=
  { w with disk := fun f => if f = tableFile name then some (cols, recs) else w.disk f }

/-- The generated call (vfp2py_convert_visitor.py:1480-1489) and `create_table`,
vfpdatabase.py:99-102; there is no `create_dbf` and no `create_cursor`. -/
def create (accepts : Char → Nat → Bool) (w : World ρ) (kind : Kind) (free : Bool) (name : Str) (fs : List Field) : World ρ × Option Err :=
  match kind with
  | .dbf => (w, some .attributeError)
  | .cursor => (w, some .attributeError)
  | .table =>
    if free then
      match columns accepts (setupString fs) with
      | none => (w, some .valueError)
      | some cols =>
        let w := w.store name cols []
        let r := useOpen w.load w.db name (.num 0) []
        ({ w with db := r.1 }, r.2)
    else (w, none)

/-- vfp2py_convert_visitor.py:1500-1506; the rule `alterTable`, VisualFoxpro9.g4 -/
inductive Clause where
  | add (f : Field)
  | drop (x : Str)
  /-- ALTER COLUMN x [NOT NULL] -/
  | change (x : Str)

/-- `ctx.tableField()`, vfp2py_convert_visitor.py:1503 -/
def Clause.field? : Clause → Option Field
  | .add f => some f
  | _ => none

/-- `ctx.identifier()`: the names that are not part of a field. vfp2py_convert_visitor.py:1505 -/
def Clause.name? : Clause → Option Str
  | .add _ => none
  | .drop x => some x
  | .change x => some x

/-- `table.add_fields(text)`. vfpdatabase.py:106 -/
def addFields (accepts : Char → Nat → Bool) (cols : List Column) (text : Str) : Option (List Column) :=
  match columns accepts text with
  | none => none
  | some new => if (cols ++ new).map Column.name |>.Nodup then some (cols ++ new) else none

/-- `table.delete_fields(name)`. vfpdatabase.py:108 -/
def deleteField (cols : List Column) (x : Str) : Option (List Column) :=
  if x ∈ cols.map Column.name then some (cols.filter fun c => c.name ≠ x) else none

/-- The columns after the generated call (vfp2py_convert_visitor.py:1500-1506, vfpdatabase.py:104-108)
for an open table; without a name `str(None)` is dropped. -/
def alter (accepts : Char → Nat → Bool) (cols : List Column) (cs : List Clause) : Option (List Column) :=
  if (cs.filterMap Clause.field?) ≠ [] then addFields accepts cols (setupString (cs.filterMap Clause.field?))
  else
    match cs.filterMap Clause.name? with
    | [] => deleteField cols "None".toList
    | x :: _ => deleteField cols (identifier x)

/-- `alter_table` of the table with a name, vfpdatabase.py:104-108. -/
def alterTable (accepts : Char → Nat → Bool) (w : World ρ) (name : Str) (cs : List Clause) : World ρ × Option Err :=
  match tableInfo w.db (.str name) with
  | .error e => (w, some e)
  | .ok t =>
    match w.disk t.file with
    | none => (w, some .valueError)
    | some (cols, recs) =>
      match alter accepts cols cs with
      | none => (w, some .valueError)
      | some cols => ({ w with disk := fun f => if f = t.file then some (cols, recs) else w.disk f }, none)

end Model.CreateTable
