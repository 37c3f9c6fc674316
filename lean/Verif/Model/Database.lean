import Verif.Py.Seq
import Verif.Model.Array
/-!
# Model of the database commands (vfp2py/vfpdatabase.py)

The `dbf` package is not part of the repository.  What the code uses of it is modelled from its
documented behaviour (part of the trusted base): a table is a list of records and a position
`index`; `-1` is before the first record and the number of records is after the last one (end of
file); `goto` takes a position or a negative position counted from the end and raises IndexError
otherwise; `skip` stops at the end raising Eof; `eof` is true on the last record and after it;
`current_record` is a true value exactly when the position is that of a record, and `recno` of the
current record is the position; a table is a true value exactly when it has records; `append` adds
at the end.  A record is a value of any type `ρ`.

Commands return the new state together with the exception raised, because a caught exception
leaves the changes made before it.
-/
namespace Model.Database
open Py Model

/-- Text as a list of characters; a Python `str` at vfpdatabase.py:1-377. -/
abbrev Str := List Char

/-- Exceptions of vfpdatabase.py:12-377 -/
inductive Err where
  | indexError | attributeError | typeError | valueError | notOpen | inUse | bof
  deriving DecidableEq, Repr

/-- `str.lower()`, vfpdatabase.py:25-70 -/
def lower (s : Str) : Str := s.map Char.toLower

/-- `os.path.basename` on POSIX. vfpdatabase.py:17, 25-35 -/
def basename (p : Str) : Str := (p.reverse.takeWhile (· ≠ '/')).reverse

/-- `os.path.splitext(p)[0]` on POSIX: dots at the start of the last component do not count. vfpdatabase.py:17, 25-35 -/
def stem (p : Str) : Str :=
  let b := p.reverse.takeWhile (· ≠ '/')
  let ext := b.takeWhile (· ≠ '.')
  match b.drop ext.length with
  | '.' :: rest => if rest.all (· = '.') then p else p.take (p.length - (ext.length + 1))
  | _ => p

/-- `dbf.Table(name).filename`: `.dbf` is added when missing. vfpdatabase.py:13-35 -/
def tableFile (name : Str) : Str :=
  if ".dbf".toList.isSuffixOf (lower name) then name else name ++ ".dbf".toList

/-- `DatabaseWorkspace`, vfpdatabase.py:12-23 (indexes are not modelled).  `locate` is the list of
the record positions that the generator still has to give. -/
structure WS (ρ : Type) where
  name : Str
  file : Str
  recs : List ρ
  index : Int
  locate : Option (List Nat)
  found : Bool

/-- `DatabaseContext`, vfpdatabase.py:37-40. -/
structure DB (ρ : Type) where
  areas : List (Option (WS ρ))
  current : Int

/-- A table name, a work-area number or nothing. The parameter `tablename` or `workarea` of vfpdatabase.py:42-377 -/
inductive Sel where
  | none
  | num (n : Int)
  | str (s : Str)
  deriving DecidableEq, Repr

variable {ρ : Type}

/-- `_is_alias`, vfpdatabase.py:25-35. -/
def WS.isAlias (w : WS ρ) (alias : Str) : Bool :=
  let f := lower w.file
  decide (lower alias ∈ [w.name, f, stem f, basename f, basename (stem f)])

/-- `close_tables`, vfpdatabase.py:284-285. -/
def closeTables (db : DB ρ) : DB ρ := { db with areas := List.replicate 32767 none }

/-- `__init__`, vfpdatabase.py:38-40. -/
def initial : DB ρ := { areas := List.replicate 32767 none, current := 0 }

/-- The search of vfpdatabase.py:49. -/
def findAlias (areas : List (Option (WS ρ))) (s : Str) : Option Nat :=
  areas.findIdx? fun
    | some w => w.isAlias s
    | none => false

/-- `get_workarea`, vfpdatabase.py:42-52. -/
def getWorkarea (db : DB ρ) (sel : Sel) : Except Err Int :=
  match sel with
  | .none => .ok db.current
  | .num n => if n = 0 then .ok db.current else .ok n
  | .str [] => .ok db.current
  | .str s =>
    match findAlias db.areas s with
    | some i => .ok (i : Int)
    | none => .error .notOpen

/-- `_get_table_info(sel)` followed by the use of an attribute, vfpdatabase.py:72-73. -/
def tableInfo (db : DB ρ) (sel : Sel) : Except Err (WS ρ) :=
  match getWorkarea db sel with
  | .error e => .error e
  | .ok i =>
    match index db.areas i with
    | none => .error .indexError
    | some none => .error .attributeError
    | some (some w) => .ok w

/-- `l[i] = v`. vfpdatabase.py:113-123 -/
def setIndex {α : Type} (l : List α) (i : Int) (v : α) : Except Err (List α) :=
  if i < 0 then
    if i + l.length < 0 then .error .indexError else .ok (l.set (i + l.length).toNat v)
  else if i.toNat < l.length then .ok (l.set i.toNat v)
  else .error .indexError

/-- Put back a changed workspace (objects are shared by reference in Python). vfpdatabase.py:72-74 -/
def putInfo (db : DB ρ) (sel : Sel) (w : WS ρ) : DB ρ :=
  match getWorkarea db sel with
  | .error _ => db
  | .ok i =>
    match setIndex db.areas i (some w) with
    | .ok a => { db with areas := a }
    | .error _ => db

/-- `select_function` (SELECT()), vfpdatabase.py:54-70; every exception gives 0. -/
def selectFunction (db : DB ρ) (sel : Sel) : Int :=
  let firstFree : Int :=
    match db.areas.findIdx? Option.isNone with
    | some i => (i : Int) + 1
    | none => 0
  match sel with
  | .num n =>
    if n = 0 then db.current + 1
    else if n = 1 then
      match db.areas.reverse.findIdx? Option.isNone with
      | some i => (db.areas.length : Int) - i
      | none => 0
    else
      match index db.areas (n - 1) with
      | some (some _) => n
      | _ => 0
  | .none => firstFree
  | .str [] => firstFree
  | .str s =>
    match getWorkarea db (.str s) with
    | .ok i => i + 1
    | .error _ => 0

/-- `select` (SELECT command), vfpdatabase.py:110-111. -/
def select (db : DB ρ) (sel : Sel) : DB ρ × Option Err :=
  match getWorkarea db sel with
  | .ok i => ({ db with current := i }, none)
  | .error e => (db, some e)

/-- `used`, vfpdatabase.py:135-140. -/
def used (db : DB ρ) (sel : Sel) : Bool :=
  match getWorkarea db sel with
  | .ok _ => true
  | .error _ => false

/-- `DatabaseWorkspace.__init__`, vfpdatabase.py:13-23; `load` is the file system: the records of
the table stored under a name. -/
def openTable (load : Str → List ρ) (name : Str) (alias : Str) : WS ρ :=
  let r := load name
  { name := lower alias, file := tableFile name, recs := r, index := if r = [] then -1 else 0,
    locate := none, found := false }

/-- `use` with a table name, vfpdatabase.py:119-123.  A work area that is not a number (not given:
`None`) cannot index a list. -/
def useOpen (load : Str → List ρ) (db : DB ρ) (name : Str) (workarea : Sel) (alias : Str) :
    DB ρ × Option Err :=
  if used db (.str name) then (db, some .inUse)
  else
    match workarea with
    | .num n =>
      let i : Option Int := if n = 0 then (db.areas.findIdx? Option.isNone).map Int.ofNat else some n
      match i with
      | none => (db, some .valueError)
      | some i =>
        match setIndex db.areas i (some (openTable load name alias)) with
        | .ok a => ({ db with areas := a }, none)
        | .error e => (db, some e)
    | _ => (db, some .typeError)

/-- `use(None, workarea)`, vfpdatabase.py:114-118. -/
def useClose (db : DB ρ) (workarea : Sel) : DB ρ × Option Err :=
  if workarea = .num 0 then (db, none)
  else
    match getWorkarea db workarea with
    | .error e => (db, some e)
    | .ok i =>
      match setIndex db.areas (i - 1) none with
      | .ok a => ({ db with areas := a }, none)
      | .error e => (db, some e)

/-! ## Moving in one table (package `dbf`) -/

/-- `table.goto(n)`. Part of the package `dbf`, called by vfpdatabase.py:185-188, 190-235 -/
def WS.goto (w : WS ρ) (n : Int) : Except Err (WS ρ) :=
  if -(w.recs.length : Int) ≤ n ∧ n < w.recs.length then
    .ok { w with index := if n < 0 then n + w.recs.length else n }
  else .error .indexError

/-- Part of the package `dbf`, vfpdatabase.py:185-188 -/
def WS.bottom (w : WS ρ) : WS ρ := { w with index := w.recs.length }
/-- Part of the package `dbf`, vfpdatabase.py:185-188 -/
def WS.top (w : WS ρ) : WS ρ := { w with index := -1 }

/-- `table.current_record`. Part of the package `dbf`, vfpdatabase.py:76-84 -/
def WS.record (w : WS ρ) : Option ρ := if w.index < 0 then none else w.recs[w.index.toNat]?

/-- `table.skip(1)`; the second component tells whether Eof is raised.
Part of the package `dbf`, vfpdatabase.py:179-183, 190-235 -/
def WS.skip1 (w : WS ρ) : WS ρ × Bool :=
  if w.index + 1 < w.recs.length then ({ w with index := w.index + 1 }, false) else (w.bottom, true)

/-- `table.eof`. Part of the package `dbf`, vfpdatabase.py:305-306 -/
def WS.eof (w : WS ρ) : Bool := decide (w.recs.length ≤ w.index + 1)

/-- `table.skip(n)` as called by `skip`, vfpdatabase.py:179-183: Eof is swallowed, Bof is not. -/
def WS.skip (w : WS ρ) (n : Int) : WS ρ × Option Err :=
  if n = 0 then (w, none)
  else if n < 0 then
    if w.index + n < 0 then (w.top, some .bof) else ({ w with index := w.index + n }, none)
  else if w.index + n < w.recs.length then ({ w with index := w.index + n }, none)
  else (w.bottom, none)

/-- Apply a table operation to the selected work area. The first lines of the methods in vfpdatabase.py:142-377 -/
def onTable (db : DB ρ) (sel : Sel) (f : WS ρ → WS ρ × Option Err) : DB ρ × Option Err :=
  match tableInfo db sel with
  | .error e => (db, some e)
  | .ok w => let r := f w; (putInfo db sel r.1, r.2)

/-- `goto`, vfpdatabase.py:185-188. -/
def WS.gotoNum (w : WS ρ) (n : Int) : WS ρ × Option Err :=
  match w.goto (if n > 0 then n - 1 else n) with
  | .ok w => (w, none)
  | .error e => (w, some e)

/-- vfpdatabase.py:185-188 -/
def gotoCmd (db : DB ρ) (sel : Sel) (n : Int) : DB ρ × Option Err := onTable db sel (·.gotoNum n)

/-- `skip`, vfpdatabase.py:179-183. -/
def skipCmd (db : DB ρ) (sel : Sel) (n : Int) : DB ρ × Option Err := onTable db sel (·.skip n)

/-- `recno`, vfpdatabase.py:287-291. -/
def recno (db : DB ρ) : Int :=
  match tableInfo db (.num db.current) with
  | .ok w => w.index + 1
  | .error _ => 0

/-- `eof`, vfpdatabase.py:305-306. -/
def eof (db : DB ρ) (sel : Sel) : Except Err Bool :=
  match tableInfo db sel with
  | .ok w => .ok w.eof
  | .error e => .error e

/-! ## Scoped commands -/

/-- vfp2py_convert_visitor.py:1778-1786; vfpdatabase.py:190-235 -/
inductive Scope where
  | all
  | rest
  | next (n : Int)
  | record (n : Int)
  deriving DecidableEq, Repr

/-- The loop of `_get_records`, vfpdatabase.py:222-228, together with what the caller does with
each record (`act`).  `cond` is the scope condition on the position; FOR and WHILE conditions see
the current record and its position.  Every turn moves forward, so a fuel of the number of records
is enough.  Result: the table and the positions given to the caller. -/
def recordsLoop (cond : Int → Bool) (forC whileC : Nat → ρ → Bool) (act : Nat → ρ → ρ) :
    Nat → WS ρ → WS ρ × List Nat
  | 0, w => (w, [])
  | fuel + 1, w =>
    match w.record with
    | none => (w, [])
    | some r =>
      let k := w.index.toNat
      if cond w.index && whileC k r then
        let hit := forC k r
        let w1 := if hit then { w with recs := w.recs.set k (act k r) } else w
        let vs := if hit then [k] else []
        let s := w1.skip1
        if s.2 then (s.1, vs)
        else
          let t := recordsLoop cond forC whileC act fuel s.1
          (t.1, vs ++ t.2)
      else (w, [])

/-- `reset`, vfpdatabase.py:191-197. -/
def WS.reset (w : WS ρ) (saved : Int) : Except Err (WS ρ) :=
  if saved < 0 then .ok w.top
  else if saved = w.recs.length then .ok w.bottom
  else w.goto saved

/-- `_get_records` on its table, vfpdatabase.py:204-234, run to the end by the caller. -/
def WS.getRecords (w : WS ρ) (scope : Scope) (forC whileC : Nat → ρ → Bool) (act : Nat → ρ → ρ) :
    WS ρ × List Nat × Option Err :=
  let save := w.index
  let start : Except Err (WS ρ) := match scope with
    | .all => w.goto 0
    | .record n => w.goto (n - 1)
    | _ => .ok w
  match start with
  | .error e => (w, [], some e)
  | .ok w1 =>
    let cond : Int → Bool := match scope with
      | .record n => fun i => i = n - 1
      | .next n => fun i => decide (i < save + n)
      | _ => fun _ => true
    if w1.record.isNone then (w1, [], none)
    else
      let r := recordsLoop cond forC whileC act w1.recs.length w1
      match scope with
      | .all => (r.1.bottom, r.2, none)
      | .rest => (r.1.bottom, r.2, none)
      | .next n =>
        match r.1.reset (save + n - 1) with
        | .ok w2 => (w2, r.2, none)
        | .error e => (r.1, r.2, some e)
      | .record n =>
        match r.1.reset (n - 1) with
        | .ok w2 => (w2, r.2, none)
        | .error e => (r.1, r.2, some e)

/-- `_get_records`, vfpdatabase.py:190-235, run to the end.  An exception leaves the selected work
area changed (there is no `finally`). -/
def getRecords (db : DB ρ) (sel : Sel) (scope : Scope) (forC whileC : Nat → ρ → Bool)
    (act : Nat → ρ → ρ) : DB ρ × List Nat × Option Err :=
  match select db sel with
  | (db, some e) => (db, [], some e)
  | (db1, none) =>
    match tableInfo db1 .none with
    | .error e => (db1, [], some e)
    | .ok w =>
      if w.recs = [] then ({ db1 with current := db.current }, [], none)
      else
        let r := w.getRecords scope forC whileC act
        let db2 := putInfo db1 .none r.1
        match r.2.2 with
        | none => ({ db2 with current := db.current }, r.2.1, none)
        | some e => (db2, r.2.1, some e)

/-- `count`, vfpdatabase.py:254-255. -/
def count (db : DB ρ) (sel : Sel) (scope : Scope) (forC whileC : Nat → ρ → Bool) :
    DB ρ × Nat × Option Err :=
  let r := getRecords db sel scope forC whileC (fun _ r => r)
  (r.1, r.2.1.length, r.2.2)

/-- `sum`, vfpdatabase.py:264-265: `sumexpr` is evaluated while each record is current. -/
def sum (db : DB ρ) (sel : Sel) (scope : Scope) (sumexpr : Nat → ρ → Int)
    (forC whileC : Nat → ρ → Bool) : DB ρ × Int × Option Err :=
  let vals : List ρ := match getWorkarea db sel with
    | .ok i => match index db.areas i with
      | some (some w) => w.recs
      | _ => []
    | .error _ => []
  let r := getRecords db sel scope forC whileC (fun _ r => r)
  (r.1, (r.2.1.filterMap fun k => vals[k]?.map (sumexpr k)).sum, r.2.2)

/-- A record with its deletion mark. Part of the package `dbf`, vfpdatabase.py:260-262 -/
structure Rec where
  fields : Str → Int
  deleted : Bool

/-- `delete_record`, vfpdatabase.py:260-262. -/
def deleteRecord (db : DB Rec) (sel : Sel) (scope : Scope) (recall : Bool)
    (forC whileC : Nat → Rec → Bool) : DB Rec × Option Err :=
  let r := getRecords db sel scope forC whileC (fun _ x => { x with deleted := !recall })
  (r.1, r.2.2)

/-- `replace`, vfpdatabase.py:154-160, for a field name without a table prefix: the value has been
evaluated by the caller. -/
def replace (db : DB Rec) (sel : Sel) (scope : Scope) (field : Str) (value : Int) :
    DB Rec × Option Err :=
  let r := getRecords db sel scope (fun _ _ => true) (fun _ _ => true)
    (fun _ x => { x with fields := fun f => if f = lower field then value else x.fields f })
  (r.1, r.2.2)

/-! ## The clauses of a command as the converter passes them on -/

/-- The query conditions of a command, vfp2py_convert_visitor.py:1687-1704 (`getQueryConditions`):
each clause is given at most once. -/
structure Query (ρ : Type) where
  scope : Option Scope
  forC : Option (Nat → ρ → Bool)
  whileC : Option (Nat → ρ → Bool)

/-- A condition that is not given holds, vfpdatabase.py:215-218. -/
def condOf (c : Option (Nat → ρ → Bool)) : Nat → ρ → Bool := c.getD fun _ _ => true

/-- `visitCount`, vfp2py_convert_visitor.py:1658-1670. -/
def countStmt (db : DB ρ) (q : Query ρ) : DB ρ × Nat × Option Err :=
  let dflt : Scope := if q.whileC.isSome then .rest else .all
  count db .none (q.scope.getD dflt) (condOf q.forC) (condOf q.whileC)

/-- `visitSum`, vfp2py_convert_visitor.py:1672-1685. -/
def sumStmt (db : DB ρ) (sumexpr : Nat → ρ → Int) (q : Query ρ) : DB ρ × Int × Option Err :=
  let dflt : Scope := if q.whileC.isSome then .rest else .all
  sum db .none (q.scope.getD dflt) sumexpr (condOf q.forC) (condOf q.whileC)

/-- `visitDeleteRecord`, vfp2py_convert_visitor.py:1621-1632. -/
def deleteStmt (db : DB Rec) (sel : Sel) (recall : Bool) (q : Query Rec) : DB Rec × Option Err :=
  deleteRecord db sel (q.scope.getD (.next 1)) recall (condOf q.forC) (condOf q.whileC)

/-- `visitReplace`, vfp2py_convert_visitor.py:1598-1609: the conditions are dropped, and the value
is an argument of the call, hence evaluated once, in the state before the command (an expression
over the current record, 0 standing for a failure to have one). -/
def replaceStmt (db : DB Rec) (sel : Sel) (field : Str) (value : Rec → Int) (q : Query Rec) :
    DB Rec × Option Err :=
  let v := match tableInfo db .none with
    | .ok w => match w.record with
      | some r => value r
      | none => 0
    | .error _ => 0
  replace db sel (q.scope.getD (.next 1)) field v

/-! ## SCAN -/

/-- The work area as `scanner` passes it on: a number, 0 being taken for "not given". vfpdatabase.py:237-252 -/
def wsSel (n : Int) : Sel := .num n

/-- The loop of `scanner`, vfpdatabase.py:247-252; `body` is the loop body of the generated code. -/
def scanLoop (ws : Int) (cond : DB ρ → Bool) (body : DB ρ → DB ρ) :
    Nat → DB ρ → DB ρ × List (DB ρ) × Option Err
  | 0, db => (db, [], some .valueError)
  | fuel + 1, db =>
    match eof db (wsSel ws) with
    | .error e => (db, [], some e)
    | .ok true => (db, [], none)
    | .ok false =>
      match skipCmd db (wsSel ws) 1 with
      | (db, some e) => (db, [], some e)
      | (db, none) =>
        if cond db then
          let r := scanLoop ws cond body fuel (body db)
          (r.1, db :: r.2.1, r.2.2)
        else scanLoop ws cond body fuel db

/-- `scanner`, vfpdatabase.py:237-252, with the loop body run at every `yield`; the states in which
the body starts are collected.  Only the scope ALL is looked at. -/
def scanner (fuel : Nat) (db : DB ρ) (scope : Scope) (cond : DB ρ → Bool) (body : DB ρ → DB ρ) :
    DB ρ × List (DB ρ) × Option Err :=
  let ws := db.current
  let record := recno db
  match tableInfo db (wsSel ws) with
  | .error e => (db, [], some e)
  | .ok w =>
    match (if scope = .all then gotoCmd db (wsSel ws) 0 else (db, none)) with
    | (db, some e) => (db, [], some e)
    | (db, none) =>
      let first := decide (w.recs ≠ []) && cond db
      let r := scanLoop ws cond body fuel (if first then body db else db)
      let trace := (if first then [db] else []) ++ r.2.1
      match r.2.2 with
      | some e => (r.1, trace, some e)
      | none =>
        let g := gotoCmd r.1 (wsSel ws) record
        (g.1, trace, g.2)

/-! ## LOCATE and CONTINUE -/

/-- `continue_locate`, vfpdatabase.py:317-328, on the workspace. -/
def WS.continueLocate (w : WS ρ) : WS ρ × Option Err :=
  match w.locate with
  | none => (w, none)
  | some [] => ({ w with index := w.recs.length, locate := none, found := false }, none)
  | some (k :: ks) =>
    match ({ w with locate := some ks }).goto k with
    | .ok w => ({ w with found := true }, none)
    | .error e => ({ w with locate := some ks }, some e)

/-- vfpdatabase.py:317-328 -/
def continueLocate (db : DB ρ) (sel : Sel) : DB ρ × Option Err := onTable db sel WS.continueLocate

/-- `locate`, vfpdatabase.py:311-315: the matching records are collected first. -/
def locate (db : DB ρ) (sel : Sel) (forC whileC : Nat → ρ → Bool) : DB ρ × Option Err :=
  match getRecords db sel .rest forC whileC (fun _ r => r) with
  | (db, _, some e) => (db, some e)
  | (db, ks, none) =>
    match onTable db sel (fun w => ({ w with locate := some ks }, none)) with
    | (db, some e) => (db, some e)
    | (db, none) => continueLocate db sel

/-- `found`, vfpdatabase.py:343-345, for an open work area. -/
def found (db : DB ρ) (sel : Sel) : Bool :=
  match tableInfo db sel with
  | .ok w => w.found
  | .error _ => false

/-! ## APPEND and INSERT -/

/-- `append`, vfpdatabase.py:142-145; `blank` is the empty record of the table. -/
def append (db : DB ρ) (sel : Sel) (blank : ρ) : DB ρ × Option Err :=
  match onTable db sel (fun w => ({ w with recs := w.recs ++ [blank] }, none)) with
  | (db, some e) => (db, some e)
  | (db, none) => gotoCmd db sel (-1)

/-- `insert`, vfpdatabase.py:162-177, with the records already made from the values: one for a list
or dictionary of values, one for each row of an array. -/
def insertInto (db : DB ρ) (sel : Sel) (rows : List ρ) : DB ρ × Option Err :=
  match onTable db sel (fun w => ({ w with recs := w.recs ++ rows }, none)) with
  | (db, some e) => (db, some e)
  | (db, none) => gotoCmd db sel (-1)

/-! ## Statements that are converted to the commands above -/

/-- `visitLocate`, vfp2py_convert_visitor.py:1550-1562: the scope is not passed on. -/
def locateStmt (db : DB ρ) (q : Query ρ) : DB ρ × Option Err :=
  locate db .none (condOf q.forC) (condOf q.whileC)

/-- `visitScanStmt`, vfp2py_convert_visitor.py:488-495. -/
def scanStmt (fuel : Nat) (db : DB ρ) (scope : Option Scope) (c : DB ρ → Bool) (body : DB ρ → DB ρ) :
    DB ρ × List (DB ρ) × Option Err :=
  scanner fuel db (scope.getD .rest) c body

/-- The rows that `insert` makes of an array, vfpdatabase.py:171-172.  (The records are appended
while the rows are made; here the rows are made first, which is the same unless reading an element
fails.) -/
def rowsOf {α : Type} (v : Arr α) : Except ArrErr (List (List α)) :=
  match v.alen 1, v.alen 2 with
  | .ok r, .ok c =>
    (List.range r.toNat).mapM fun (i : Nat) =>
      (List.range c.toNat).mapM fun (j : Nat) => v.get ((i : Int) + 1) ((j : Int) + 1)
  | .error e, _ => .error e
  | _, .error e => .error e

/-- `insert` with an array, vfpdatabase.py:162-177; `mk` makes a record from the values of its
first fields (the others blank). -/
def insertArray {α : Type} (db : DB ρ) (sel : Sel) (mk : List α → ρ) (v : Arr α) : DB ρ × Option Err :=
  match rowsOf v with
  | .ok rows => insertInto db sel (rows.map mk)
  | .error _ => (db, some .indexError)

end Model.Database
