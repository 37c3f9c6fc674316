import Verif.Model.Database
/-!
# Deleted records, SET DELETED and PACK

Sources: `/repo/vfp2py/vfpdatabase.py`, `_get_records` (190-235), `pack` (267-274), `delete_record`
(260-262); `/repo/vfp2py/vfpfunc.py`, `set` (1642-1683: SET DELETED stores a word that no other
function of the library reads); `/repo/vfp2py/vfp2py_convert_visitor.py`, `visitPack` (1634-1645).

The commands COUNT, SUM, DELETE, RECALL and REPLACE with scope ALL and a FOR clause are one
constructor: what is done with each record (`act`), and the records that were seen.  PACK without
the name of a table, for the selected work area; `table.pack()` of the package `dbf` removes the
marked records and numbers the others again.  What it does with the position depends on the version
of the package, which is not part of the repository: `place` in `Sys` gives the new index.
-/
namespace Model.Deleted
open Model.Database

/-- The open tables, `SET_PROPS['deleted']` and what `table.pack()` makes of the index. vfpfunc.py:28-46; vfpdatabase.py:37-40 -/
structure Sys where
  place : Int → Int
  on : Bool
  db : DB Rec

/-- vfp2py_convert_visitor.py:1634-1645 -/
inductive Pack where
  | both
  | dbf
  | memo
  deriving DecidableEq, Repr

/-- vfp2py_convert_visitor.py:1598-1685, 1791-1885 -/
inductive Cmd where
  /-- SET DELETED ON or OFF -/
  | set (on : Bool)
  /-- A command with scope ALL. -/
  | each (forC : Rec → Bool) (act : Rec → Rec)
  | pack (what : Pack)

/-- `table.pack()`. vfpdatabase.py:267-274 -/
def WS.pack (place : Int → Int) (w : WS Rec) : WS Rec :=
  { w with recs := w.recs.filter (fun r => !r.deleted), index := place w.index }

/-- `pack`, vfpdatabase.py:267-274, called as by `visitPack` without a table: the first argument is
not looked at. -/
def pack (place : Int → Int) (db : DB Rec) (_what : Pack) : DB Rec × Option Err :=
  onTable db .none (fun w => (WS.pack place w, none))

/-- The records of the selected table. vfpdatabase.py:76-84 -/
def current (db : DB Rec) : List Rec :=
  match tableInfo db .none with
  | .ok w => w.recs
  | .error _ => []

/-- One command and the records it saw. vfpdatabase.py:190-274 -/
def run (s : Sys) : Cmd → Sys × List Rec
  | .set on => ({ s with on := on }, [])
  | .each forC act =>
    let r := getRecords s.db .none .all (fun _ x => forC x) (fun _ _ => true) (fun _ x => act x)
    ({ s with db := r.1 }, r.2.1.filterMap fun k => (current s.db)[k]?)
  | .pack what => ({ s with db := (pack s.place s.db what).1 }, [])

/-- Statements one after the other, vfp2py_convert_visitor.py:219-225 -/
def runAll : Sys → List Cmd → Sys × List (List Rec)
  | s, [] => (s, [])
  | s, c :: cs =>
    let r := run s c
    let t := runAll r.1 cs
    (t.1, r.2 :: t.2)

end Model.Deleted
