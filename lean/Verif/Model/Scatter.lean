import Verif.Model.Database
import Verif.Py.Dict
/-!
# SCATTER and GATHER

`visitScatterExpr` and `visitGatherExpr` (vfp2py_convert_visitor.py 1738-1776), `scatter` and
`gather` (vfpfunc.py 1634-1640), `_current_record_copy` and `_update_from` (vfpdatabase.py 79-98).

A record is the list of the values of its fields, in the order of the list `names` of the fields of
the table, over any type `α` of values.  Writing a value of a wrong type, where `dbf` raises, is not
modelled.
-/
namespace Model.Scatter
open Py Model.Database

/-- vfp2py_convert_visitor.py:1738-1776 -/
inductive FieldKind where
  | only | like | except
  deriving DecidableEq, Repr

/-- What is written in a SCATTER or GATHER command, VisualFoxpro9.g4:216-217.  `target` is true when
the command has TO (SCATTER) or FROM (GATHER). -/
structure Clauses where
  fields : Option (FieldKind × List Str) := none
  memo : Bool := false
  blank : Bool := false
  memvar : Bool := false
  name : Bool := false
  additive : Bool := false
  target : Bool := false
  deriving DecidableEq, Repr

/-- A keyword argument that is only given if the clause is there, vfp2py_convert_visitor.py:1738-1776 -/
def whenTrue (b : Bool) (k : String) : List Str := if b then [k.toList] else []

/-- The keywords for FIELDS, vfp2py_convert_visitor.py:1740-1746 and 1766-1771. -/
def fieldKeys : Option (FieldKind × List Str) → List Str
  | none => []
  | some (.only, _) => ["fields".toList]
  | some _ => ["type".toList, "fields".toList]

/-- The keywords of the call that is written for SCATTER, vfp2py_convert_visitor.py:1738-1758. -/
def scatterKeys (c : Clauses) : List Str :=
  fieldKeys c.fields ++ whenTrue c.memo "memo" ++ whenTrue c.blank "blank" ++
    whenTrue (c.name && c.additive) "additive" ++ whenTrue (c.name || c.target) "totype"

/-- The parameters of `scatter`, vfpfunc.py:1637. -/
def scatterParams : List Str :=
  ["totype".toList, "name".toList, "fields".toList, "fieldstype".toList, "memo".toList, "blank".toList]

/-- The keywords of the call that is written for GATHER, vfp2py_convert_visitor.py:1764-1776. -/
def gatherKeys (c : Clauses) : List Str :=
  fieldKeys c.fields ++ whenTrue c.memo "memo" ++ whenTrue (c.name || c.target) "val"

/-- The parameters of `gather`, vfpfunc.py:1634. -/
def gatherParams : List Str := ["val".toList, "fields".toList, "fieldstype".toList, "memo".toList]

/-- Python raises TypeError for a keyword that is not a parameter. vfpfunc.py:1634-1640 -/
def accepts (params keys : List Str) : Bool := keys.all params.contains

/-- `_current_record_copy`, vfpdatabase.py:79-84.  Outside of the records `dbf` raises (the
exception is taken to be `attributeError`). -/
def recordCopy {α : Type} (names : List Str) (db : DB (List α)) : Except Err (Dict Str α) :=
  match tableInfo db .none with
  | .error e => .error e
  | .ok w =>
    match w.record with
    | none => .error .attributeError
    | some r => .ok (names.zip r)

/-- What a SCATTER command does. vfpfunc.py:1637-1640 -/
inductive Scattered (α : Type) where
  /-- the converter raises: none of NAME, TO and MEMVAR (1760: `name` has no value) -/
  | notConverted
  | raises (e : Err)
  /-- the value is assigned to the name after NAME or TO; `none` is Python's None -/
  | assigns (v : Option (Dict Str α))
  /-- the call stands alone and its result is dropped -/
  | nothing

/-- `scatter`, vfpfunc.py:1637-1640. -/
def scatterCall {α : Type} (names : List Str) (db : DB (List α)) (c : Clauses) :
    Except Err (Option (Dict Str α)) :=
  if accepts scatterParams (scatterKeys c) then
    match recordCopy names db with
    | .error e => .error e
    | .ok o => .ok (if c.name then some o else none)
  else .error .typeError

/-- A SCATTER command, vfp2py_convert_visitor.py:1738-1762. -/
def scatter {α : Type} (names : List Str) (db : DB (List α)) (c : Clauses) : Scattered α :=
  if c.memvar then
    match scatterCall names db c with
    | .error e => .raises e
    | .ok _ => .nothing
  else if c.name || c.target then
    match scatterCall names db c with
    | .error e => .raises e
    | .ok v => .assigns v
  else .notConverted

/-- What is given to GATHER: None, an object with its properties, or an array with its elements.
vfp2py_convert_visitor.py:1764-1776 -/
inductive Source (α : Type) where
  | none
  | object (props : Dict Str α)
  | array (elements : List α)

/-- The attributes of an `Array` that can be names of fields, vfpfunc.py:874-936. -/
def arrayAttrs : List Str :=
  ["columns".toList, "offset".toList, "dim1".toList, "data".toList, "alen".toList, "index".toList]

/-- `getattr(val, field)` if `hasattr(val, field)`; `attr` gives the values of the attributes of an
array. vfpdatabase.py:86-97 -/
def getattr {α : Type} (attr : Str → α) : Source α → Str → Option α
  | .none, _ => Option.none
  | .object props, f => props.get f
  | .array _, f => if arrayAttrs.contains f then some (attr f) else Option.none

/-- `dbf.write(record, **update)`. vfpdatabase.py:86-97 -/
def writeFields {α : Type} (names : List Str) (r : List α) (update : Dict Str α) : List α :=
  List.zipWith (fun f v => (update.get f).getD v) names r

/-- The fields to write, vfpdatabase.py:90-97: an object and None cannot be iterated over. -/
def updates {α : Type} (attr : Str → α) (names : List Str) (val : Source α) : Option (Dict Str α) :=
  let update := names.filterMap fun f => (getattr attr val f).map fun v => (f, v)
  if update.isEmpty then
    match val with
    | .array elements => some (names.zip elements)
    | _ => Option.none
  else some update

/-- `_update_from`, vfpdatabase.py:86-98. -/
def updateFrom {α : Type} (attr : Str → α) (names : List Str) (val : Source α) (w : WS (List α)) :
    WS (List α) :=
  match w.record with
  | Option.none => w
  | some r =>
    match updates attr names val with
    | Option.none => w
    | some u => { w with recs := w.recs.set w.index.toNat (writeFields names r u) }

/-- A GATHER command, vfp2py_convert_visitor.py:1764-1776 and vfpfunc.py:1634-1635: `val` is the
value of the expression after NAME or FROM. -/
def gather {α : Type} (attr : Str → α) (names : List Str) (db : DB (List α)) (c : Clauses)
    (val : Source α) : DB (List α) × Option Err :=
  if accepts gatherParams (gatherKeys c) then
    onTable db .none fun w => (updateFrom attr names (if (gatherKeys c).contains "val".toList then val else .none) w, Option.none)
  else (db, some .typeError)

end Model.Scatter
