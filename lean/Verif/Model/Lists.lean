/-!
# The contents of combo boxes, list boxes and grids

`Combobox.additem`, `value` and its events, vfpfunc.py:450-479; `Listbox.rowsource`, 591-607; `Grid.refresh`,
`recordsource` and the click on a row, 617-665.

Qt is modelled by what its manual says of the functions called: `QComboBox.addItem` makes the first item the
current one, `setCurrentIndex` emits `currentIndexChanged` if the index changes and signals are not blocked,
`findText` with `MatchFixedString` compares without regard to case, `setRowCount` and `setColumnCount` drop
the cells outside.  Simplifications: the event procedures are recorded and do nothing else; a table is the
list of its records (deleted ones too, as in the iteration of the dbf package) with the position of the record
pointer; finding the work area of a name is a function (`_is_alias` is modelled in Workareas); the
values of fields are texts, whole numbers, logical values and `None`.
-/
namespace Model.Lists

/-- Text as a list of characters; a Python `str`, vfpfunc.py:57 -/
abbrev Str := List Char

/-! ## Combo boxes -/

/-- The event procedures of a combo box, vfpfunc.py:475-479 -/
inductive Event where
  | programmaticChange | interactiveChange
  deriving DecidableEq, Repr

/-- A combo box: items, current index, whether signals are blocked, whether the signal is connected (454), and
the event procedures that were called with the text they can read. vfpfunc.py:450-479 -/
structure Combo where
  items : List Str
  index : Option Nat
  blocked : Bool
  connected : Bool
  log : List (Event × Str)

/-- `currentText()`, vfpfunc.py:464-465 -/
def Combo.currentText (c : Combo) : Str := (c.index.bind fun i => c.items[i]?).getD []

/-- `blockSignals(b)`, vfpfunc.py:458, 461, 470, 472 -/
def Combo.blockSignals (c : Combo) (b : Bool) : Combo := { c with blocked := b }

/-- `QComboBox.setCurrentIndex`: an index out of range is none; `interactivechange` is the slot (454).
vfpfunc.py:460, 471 -/
def Combo.setCurrentIndex (c : Combo) (i : Option Nat) : Combo :=
  let j := i.filter fun k => decide (k < c.items.length)
  let d := { c with index := j }
  if c.index ≠ j ∧ c.blocked = false ∧ c.connected = true
  then { d with log := d.log ++ [(.interactiveChange, d.currentText)] } else d

/-- `QComboBox.addItem`: the item goes to the end; in an empty box it becomes the current one. vfpfunc.py:459 -/
def Combo.addItem (c : Combo) (v : Str) : Combo :=
  let d := { c with items := c.items ++ [v] }
  if c.items = [] ∧ c.index = none then d.setCurrentIndex (some 0) else d

/-- `QComboBox.findText(val, MatchFixedString)`, vfpfunc.py:469 -/
def Combo.findText (c : Combo) (v : Str) : Option Nat :=
  c.items.findIdx? fun t => t.map Char.toLower = v.map Char.toLower

/-- A new combo box, vfpfunc.py:451-454 -/
def Combo.new : Combo := ⟨[], none, false, true, []⟩

/-- `additem`, vfpfunc.py:456-461 -/
def Combo.additem (c : Combo) (v : Str) : Combo :=
  (((c.blockSignals true).addItem v).setCurrentIndex c.index).blockSignals false

/-- The setter of `value`, vfpfunc.py:467-473 -/
def Combo.setValue (c : Combo) (v : Str) : Combo :=
  let d := ((c.blockSignals true).setCurrentIndex (c.findText v)).blockSignals false
  { d with log := d.log ++ [(.programmaticChange, d.currentText)] }

/-- The user picks the item at a position, vfpfunc.py:454 -/
def Combo.pick (c : Combo) (i : Nat) : Combo := c.setCurrentIndex (some i)

/-- What happens to a combo box: vfpfunc.py:456, 468 and the user. -/
inductive Op where
  | add (v : Str) | assign (v : Str) | pick (i : Nat)
  deriving DecidableEq, Repr

/-- vfpfunc.py:456-473 -/
def Combo.run (c : Combo) : Op → Combo
  | .add v => c.additem v
  | .assign v => c.setValue v
  | .pick i => c.pick i

/-! ## Tables -/

/-- The values of fields, vfpfunc.py:607, 647 -/
inductive Val where
  | text (s : Str) | int (n : Int) | logical (b : Bool) | none
  deriving DecidableEq, Repr

/-- Python's `str`, vfpfunc.py:57, 607, 647 -/
def Val.str : Val → Str
  | .text s => s
  | .int n => (toString n).toList
  | .logical true => "True".toList
  | .logical false => "False".toList
  | .none => "None".toList

/-- A table: the names of its fields, its records and the position of the record pointer (none at the end of
the file). vfpfunc.py:638-645 -/
structure Table where
  names : List Str
  records : List (List Val)
  current : Option Nat

/-- `DB`: the tables of the work areas, the work area of the table with a name or alias, and the current work
area. vfpdatabase.py:40-53 -/
structure Db where
  areas : Nat → Option Table
  find : Str → Option Nat
  current : Nat

/-- `get_workarea`; `none` is the exception. vfpdatabase.py:42-53 -/
def Db.workarea (db : Db) (s : Str) : Option Nat := if s = [] then some db.current else db.find s

/-- `DB._get_table_info(source).table`; `none` is the exception. vfpdatabase.py:72-73 -/
def Db.lookup (db : Db) (s : Str) : Option Table := (db.workarea s).bind db.areas

/-! ## List boxes -/

/-- A list box: the attribute `_source` and the items. vfpfunc.py:591-607 -/
structure ListBox where
  source : Str
  items : List Str

/-- `record[0]`; a record has at least one field. vfpfunc.py:607 -/
def firstText : List Val → Str
  | v :: _ => v.str
  | [] => []

/-- The setter of `rowsource`; the flag tells whether it ended without an exception. vfpfunc.py:602-607 -/
def ListBox.setRowsource (l : ListBox) (db : Db) (s : Str) : ListBox × Bool :=
  match db.lookup s with
  | some t => (t.records.foldl (fun l r => { l with items := l.items ++ [firstText r] }) { l with source := s }, true)
  | none => ({ l with source := s }, false)

/-- A new list box with the given `rowsource` if any: the properties are set by `Custom.__init__`, then
`_source` is made empty. vfpfunc.py:592-596, 151-154 -/
def ListBox.new (db : Db) : Option Str → Option ListBox
  | some s => match ListBox.setRowsource ⟨[], []⟩ db s with
    | (l, true) => some { l with source := [] }
    | (_, false) => none
  | none => some ⟨[], []⟩

/-! ## Grids -/

/-- A `QTableWidget` with the attribute `_source`. vfpfunc.py:617-654 -/
structure Grid where
  source : Str
  rows : Nat
  cols : Nat
  cell : Nat → Nat → Option Str
  vertical : List Str
  horizontal : List Str

/-- `setColumnCount`: the cells outside are dropped. vfpfunc.py:640 -/
def Grid.setColumnCount (g : Grid) (n : Nat) : Grid :=
  { g with cols := n, cell := fun i j => if j < n then g.cell i j else none }
/-- `setRowCount`: the cells outside are dropped. vfpfunc.py:641 -/
def Grid.setRowCount (g : Grid) (n : Nat) : Grid :=
  { g with rows := n, cell := fun i j => if i < n then g.cell i j else none }
/-- `setItem`: outside of the grid it does nothing. vfpfunc.py:647 -/
def Grid.setItem (g : Grid) (i j : Nat) (s : Str) : Grid :=
  if i < g.rows ∧ j < g.cols then { g with cell := fun i' j' => if i' = i ∧ j' = j then some s else g.cell i' j' } else g

/-- `for j, val in enumerate(record)`, vfpfunc.py:646-647 -/
def Grid.fillRow (g : Grid) (i : Nat) : Nat → List Val → Grid
  | _, [] => g
  | j, v :: vs => (g.setItem i j v.str).fillRow i (j + 1) vs
/-- `for i, record in enumerate(table)`, vfpfunc.py:645-647 -/
def Grid.fill (g : Grid) : Nat → List (List Val) → Grid
  | _, [] => g
  | i, r :: rs => (g.fillRow i 0 r).fill (i + 1) rs

/-- The labels of the rows, vfpfunc.py:642 -/
def marks (t : Table) : List Str :=
  (List.range t.records.length).map fun i => if t.current = some i then ">".toList else "  ".toList

/-- `refresh` once the table is found, vfpfunc.py:639-647 -/
def Grid.display (g : Grid) (t : Table) : Grid :=
  let g1 := (g.setColumnCount t.names.length).setRowCount t.records.length
  { g1 with vertical := marks t, horizontal := t.names }.fill 0 t.records

/-- `refresh`; also on focus (649-650). vfpfunc.py:637-650 -/
def Grid.refresh (g : Grid) (db : Db) : Option Grid := (db.lookup g.source).map g.display

/-- The setter of `recordsource`, vfpfunc.py:664-667 -/
def Grid.setRecordsource (g : Grid) (db : Db) (s : Str) : Option Grid := { g with source := s }.refresh db

/-- An empty `QTableWidget`, vfpfunc.py:619 -/
def Grid.empty : Grid := ⟨[], 0, 0, fun _ _ => none, [], []⟩

/-- A new grid with the given `recordsource` if any: `_source` is made empty after `Custom.__init__`.
vfpfunc.py:618-622, 151-154 -/
def Grid.new (db : Db) : Option Str → Option Grid
  | some s => (Grid.empty.setRecordsource db s).map fun g => { g with source := [] }
  | none => some Grid.empty

/-- `table.goto` on the table of that name. vfpfunc.py:628 -/
def Db.goto (db : Db) (s : Str) (i : Nat) : Db :=
  match db.workarea s with
  | some w => { db with areas := fun n => if n = w then (db.areas n).map fun t => { t with current := some i } else db.areas n }
  | none => db

/-- A click on a row: the record pointer goes there and the grid is refreshed. vfpfunc.py:627-629 -/
def Grid.click (g : Grid) (db : Db) (i : Nat) : Option (Grid × Db) :=
  (g.refresh (db.goto g.source i)).map fun g' => (g', db.goto g.source i)

end Model.Lists
