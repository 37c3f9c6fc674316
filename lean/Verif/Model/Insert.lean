import Verif.Py.Basic
/-!
# The values of INSERT

`visitInsert`, vfp2py_convert_visitor.py:1583-1597, and `insert`, vfpdatabase.py:162-178, as far as the values of the new record are
concerned; where the record goes is the matter of `Model/Database.lean`, arrays are those of `insertArray` there.

A record has a value or nothing (`none`: blank) for every field of the table.  The names of the fields of a table are in lower case.
The package `dbf` takes a tuple as the values of the first fields and refuses one that is longer than the table has fields; it takes a
dictionary as the values of the fields named and refuses one with other names.
-/
namespace Model.Insert

/-- Text as a list of characters; a Python `str` at vfp2py_convert_visitor.py:1583-1597. -/
abbrev Str := List Char

/-- What stands behind `INSERT INTO table`; properties and variables by their name in lower case.
vfp2py_convert_visitor.py:1583-1597 -/
inductive Source (α : Type) where
  | values (vs : List α)
  | named (fs : List Str) (vs : List α)
  | object (props : Str → Option α)
  | memvar

/-- The second argument of the generated call. vfp2py_convert_visitor.py:1583-1597 -/
inductive Arg (α : Type) where
  | tuple (vs : List α)
  | dict (d : List (Str × α))
  | object (props : Str → Option α)
  | none

/-- `visitSpecialExpr` (vfp2py_convert_visitor.py:1151-1153) for a name. -/
def lower (s : Str) : Str := s.map Char.toLower

/-- One item of a dictionary display: a later item replaces the value of an earlier one with the same key.
Python on the code of vfp2py_convert_visitor.py:1595 -/
def put {α : Type} (d : List (Str × α)) (k : Str) (v : α) : List (Str × α) :=
  if k ∈ d.map Prod.fst then d.map fun e => if e.1 = k then (k, v) else e else d ++ [(k, v)]

/-- `{field: value for field, value in zip(fields, values)}`. vfp2py_convert_visitor.py:1583-1597 -/
def dictOf {α : Type} (ps : List (Str × α)) : List (Str × α) := ps.foldl (fun d p => put d p.1 p.2) []

/-- `visitInsert`, vfp2py_convert_visitor.py:1583-1597; `none`: the exception of line 1592. -/
def convert {α : Type} : Source α → Option (Arg α)
  | .values vs => some (.tuple vs)
  | .named fs vs =>
    if fs = [] then some (.tuple vs)
    else if fs.length ≠ vs.length then Option.none
    else some (.dict (dictOf ((fs.map lower).zip vs)))
  | .object p => some (.object p)
  | .memvar => some .none

/-- `dict.get`. vfpdatabase.py:162-178 -/
def lookup {α : Type} (d : List (Str × α)) (k : Str) : Option α := (d.find? fun e => e.1 == k).map Prod.snd

/-- `table.append`; `none`: an exception, and no new record. vfpdatabase.py:162-178 -/
def appendDict {α : Type} (fields : List Str) (d : List (Str × α)) : Option (List (Option α)) :=
  if d.all fun e => e.1 ∈ fields then some (fields.map (lookup d)) else none

/-- `insert`, vfpdatabase.py:162-178: the new record.  A tuple, a dictionary and an object have no method `alen` (line 171), so that
the exception of line 173 comes.  In line 167 the name `variable` is not defined in vfpdatabase.py. -/
def insert {α : Type} (fields : List Str) : Arg α → Option (List (Option α))
  | .none => Option.none
  | .tuple vs => if fields.length < vs.length then Option.none else some ((List.range fields.length).map fun i => vs[i]?)
  | .dict d => appendDict fields d
  | .object p => appendDict fields (fields.filterMap fun f => (p f).map fun v => (f, v))

/-- The new record of an INSERT statement. vfp2py_convert_visitor.py:1583-1597 and vfpdatabase.py:162-178 -/
def run {α : Type} (fields : List Str) (s : Source α) : Option (List (Option α)) := (convert s).bind (insert fields)

end Model.Insert
