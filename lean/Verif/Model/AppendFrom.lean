import Verif.Model.Database
/-!
# APPEND FROM

Sources: `/repo/vfp2py/vfpdatabase.py`, `append_from` (147-152); `/repo/vfp2py/vfp2py_convert_visitor.py`,
`visitAppendFrom` (1567-1576) without ARRAY (that is `insert`, see `Model.Database`).

The source has the fields of the table.  What the package `dbf` does with the deletion mark of a record
that is appended and with the position in the table depends on its version, which is not part of the repository:
`Lib` stands for both.
-/
namespace Model.AppendFrom
open Model.Database

/-- The files, `copy`: the record that `table.append(record)` makes, with the fields of `record`; `place`: the index afterwards.
Part of the package `dbf`, vfpdatabase.py:149-152 -/
structure Lib where
  load : Str → Option (List Rec)
  copy : Rec → Rec
  place : Int → Int
  keeps : ∀ r, (copy r).fields = r.fields

/-- `table.append(record)`. vfpdatabase.py:152 -/
def Lib.append (lib : Lib) (w : WS Rec) (r : Rec) : WS Rec :=
  { w with recs := w.recs ++ [lib.copy r], index := lib.place w.index }

/-- `for record in from_table`. vfpdatabase.py:151-152 -/
def Lib.loop (lib : Lib) : List Rec → WS Rec → WS Rec
  | [], w => w
  | r :: rs, w => lib.loop rs (lib.append w r)

/-- `append_from`, vfpdatabase.py:147-152; a file that cannot be opened is a `valueError`, types other than `dbf` do nothing. -/
def appendFrom (lib : Lib) (db : DB Rec) (sel : Sel) (source : Str) (type : Str) : DB Rec × Option Err :=
  onTable db sel fun w =>
    if type = "dbf".toList then
      match lib.load (tableFile source) with
      | none => (w, some .valueError)
      | some recs => (lib.loop recs w, none)
    else (w, none)

/-- APPEND FROM source [FOR condition] [TYPE type], VisualFoxpro9.g4:203 -/
structure Stmt where
  source : Str
  forC : Option (Rec → Bool)
  type : Option Str

/-- `visitAppendFrom`, vfp2py_convert_visitor.py:1567-1576: FOR and TYPE become the keywords `for_cond` and `filetype`, which
`append_from` (vfpdatabase.py:147) does not have. -/
def run (lib : Lib) (db : DB Rec) (s : Stmt) : DB Rec × Option Err :=
  if s.forC.isSome || s.type.isSome then (db, some .typeError)
  else appendFrom lib db .none s.source "dbf".toList

end Model.AppendFrom
