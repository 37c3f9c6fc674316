import Verif.Model.Database
import Verif.Model.NameArgs
import Verif.Py.Dict
/-!
# INDEX ON

`visitIndexOn`, vfp2py_convert_visitor.py:1647-1656, `index_on`, vfpdatabase.py:279-282, and the record pointer
afterwards (`goto`, `skip`, 179-188).

The key and the name of the tag are names in the sense of `Model/NameArgs.lean`.  Simplifications: the values of
fields are texts and whole numbers; `create_index` of the package dbf computes the keys of all records at once;
the file of an index is left out.
-/
namespace Model.IndexOn
open Model.Database (WS)
open Model.NameArgs (Special E visit)

/-- Text as a list of characters; a Python `str`, vfpdatabase.py:279-282 -/
abbrev Str := List Char

/-- The values of fields and expressions, vfpdatabase.py:281 -/
inductive Val where
  | text (s : Str)
  | num (n : Int)
  deriving DecidableEq, Repr

/-- A record: its fields with their names in lower case. vfpdatabase.py:281 -/
abbrev Rec := List (Str × Val)

/-- Raised by `getattr` in vfpdatabase.py:281. -/
inductive Err where
  | attributeError | typeError
  deriving DecidableEq, Repr

/-- INDEX ON key TAG tag [DESCENDING] [UNIQUE], VisualFoxpro9.g4:198. -/
structure Cmd where
  key : Special
  tag : Special
  descending : Bool
  unique : Bool

/-- An open table with its indexes: for each name of an index the keys of the records. vfpdatabase.py:16-23, 279-282 -/
structure Table where
  ws : WS Rec
  index : Py.Dict Val (List Val)
  current : Option Val

/-- The value of an argument of `DB.index_on` when the statement is executed; `ev` gives the values of expressions
at that time. vfp2py_convert_visitor.py:1648-1656 -/
def argument (ev : E → Val) (a : Special) : Val :=
  match visit a with
  | .literal s => .text s
  | .code e => ev e

/-- `getattr(rec, field)`, vfpdatabase.py:281 -/
def getattr (r : Rec) : Val → Except Err Val
  | .text s => match r.lookup s with
    | some v => .ok v
    | none => .error .attributeError
  | .num _ => .error .typeError

/-- The keys of all records, vfpdatabase.py:281 -/
def keys (field : Val) : List Rec → Except Err (List Val)
  | [] => .ok []
  | r :: rs => match getattr r field with
    | .error e => .error e
    | .ok v => match keys field rs with
      | .error e => .error e
      | .ok vs => .ok (v :: vs)

/-- `visitIndexOn` and `index_on`: the direction and UNIQUE are passed on and not used.
vfp2py_convert_visitor.py:1647-1656; vfpdatabase.py:279-282 -/
def indexOn (ev : E → Val) (t : Table) (c : Cmd) : Except Err Table :=
  match keys (argument ev c.key) t.ws.recs with
  | .error e => .error e
  | .ok ks => .ok { t with index := Py.Dict.set t.index (argument ev c.tag) ks, current := some (argument ev c.tag) }

/-- The current record, then SKIP, so many times. vfpdatabase.py:76-77, 179-183 -/
def walk : Nat → WS Rec → List Rec
  | 0, _ => []
  | n + 1, w => w.record.toList ++ walk n (w.skip 1).1

/-- GO TOP, then the records one after the other with SKIP, as many as there are. vfpdatabase.py:179-188 -/
def visited (t : Table) : List Rec := walk t.ws.recs.length (t.ws.gotoNum 0).1

end Model.IndexOn
