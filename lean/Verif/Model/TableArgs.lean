import Verif.Model.Moves
/-!
# Functions and commands that are told which table to work on

`alias`, `dbf`, `recno`, `reccount`, `recsize`, `bof`, `eof`, `deleted`, `found`, `zap`, `field` and
`fcount` of vfpdatabase.py (124-132, 287-309, 343-374); the converter passes the arguments on as
they are (vfp2py_convert_visitor.py 966-970, 1732-1733).
-/
namespace Model.TableArgs
open Model.Database

variable {ρ : Type}

/-- Results of vfpdatabase.py:125-132, 287-375 -/
inductive Val where
  | num (n : Int)
  | text (s : Str)
  | bool (b : Bool)
  | none
  deriving DecidableEq, Repr

/-- What the package `dbf` knows of a table beyond its records: the names of the fields and the
length of a record of the table of a file, and whether a record is marked as deleted. Used by vfpdatabase.py:287-375 -/
structure Info (ρ : Type) where
  fields : Str → List Str
  size : Str → Int
  deleted : ρ → Bool

/-- vfpdatabase.py:125-132, 287-375 -/
inductive Fn where
  | alias | dbf | recno | reccount | recsize | bof | eof | deleted | found | field (i : Int) | fcount
  deriving DecidableEq, Repr

/-- A method that begins with `self._get_table_info(arg)` and raises what that raises. vfpdatabase.py:72-74 -/
def ofTable (db : DB ρ) (sel : Sel) (f : WS ρ → Except Err Val) : Except Err Val :=
  match tableInfo db sel with
  | .error e => .error e
  | .ok w => f w

/-- `try: ... except: return v`. vfpdatabase.py:287-297 -/
def orElse (v : Val) : Except Err Val → Except Err Val
  | .error _ => .ok v
  | .ok x => .ok x

/-- `is_deleted(table.current_record)`; outside of the records `dbf` raises. vfpdatabase.py:308-309 -/
def deletedOf (info : Info ρ) (w : WS ρ) : Except Err Val :=
  match w.record with
  | some r => .ok (.bool (info.deleted r))
  | Option.none => .error .attributeError

/-- `table_info.name or os.path.splitext(os.path.basename(filename))[0]`. vfpdatabase.py:125-127 -/
def aliasOf (w : WS ρ) : Str := if w.name = [] then stem (basename w.file) else w.name

/-- `field_names[i - 1]`. vfpdatabase.py:358-362 -/
def fieldOf (info : Info ρ) (w : WS ρ) (i : Int) : Except Err Val :=
  match Py.index (info.fields w.file) (i - 1) with
  | some f => .ok (.text f)
  | Option.none => .error .indexError

/-- `f(arg)`; `none` is a call without an argument for the table. vfpdatabase.py:125-132, 287-375 -/
def call (info : Info ρ) (db : DB ρ) (arg : Option Sel) : Fn → Except Err Val
  | .alias => ofTable db (arg.getD .none) fun w => .ok (.text (aliasOf w))
  | .dbf => orElse .none (ofTable db (arg.getD .none) fun w => .ok (.text w.file))
  | .recno => match arg with
    | some _ => .error .typeError
    | Option.none => .ok (.num (recno db))
  | .reccount => match arg with
    | some _ => .error .typeError
    | Option.none => .ok (.num (Moves.reccount db))
  | .recsize => ofTable db (arg.getD .none) fun w => .ok (.num (info.size w.file))
  | .bof => ofTable db (arg.getD .none) fun w => .ok (.bool (Moves.WS.bof w))
  | .eof => ofTable db (arg.getD .none) fun w => .ok (.bool w.eof)
  | .deleted => ofTable db (arg.getD .none) (deletedOf info)
  | .found => match tableInfo db (arg.getD .none) with
    | .ok w => .ok (.bool w.found)
    -- an unused work area is None, for which the answer is False (345)
    | .error .attributeError => .ok (.bool false)
    | .error e => .error e
  | .field i => orElse (.num 0) (ofTable db (arg.getD .none) fun w => fieldOf info w i)
  -- the argument is not used, vfpdatabase.py:368-372
  | .fcount => orElse (.num 0) (ofTable db .none fun w => .ok (.num ((info.fields w.file).length : Int)))

/-- `table.zap()` of the package `dbf`. vfpdatabase.py:355-356 -/
def WS.zap (w : WS ρ) : WS ρ := { w with recs := [], index := -1 }

/-- `zap`, vfpdatabase.py:355-356: ZAP, and ZAP IN; the argument is not used. -/
def zap (db : DB ρ) (_arg : Option Sel) : DB ρ × Option Err :=
  onTable db .none fun w => (WS.zap w, Option.none)

end Model.TableArgs
