import Verif.Model.Database
/-!
# Model of GO, SKIP, EOF() and BOF() as statements and functions of a program

`vfp2py_convert_visitor.py` 1520-1528 (`visitGoRecord`), 1611-1614 (`visitSkipRecord`) and the
methods of `vfpdatabase.py` they call.  The navigation of the `dbf` package is that of
`Model/Database.lean`.
-/
namespace Model.Moves
open Model.Database

variable {ρ : Type}

/-- The target of GO. vfp2py_convert_visitor.py:1520-1528 -/
inductive Target where
  | top
  | bottom
  | record (n : Int)
  deriving DecidableEq, Repr

/-- The argument of SKIP: nothing, a number written in the program, or another expression with
its value. vfp2py_convert_visitor.py:1611-1614 -/
inductive Amount where
  | omitted
  | const (n : Int)
  | code (n : Int)
  deriving DecidableEq, Repr

/-- `visitGoRecord`, vfp2py_convert_visitor.py:1520-1528: the number passed to `DB.goto`. -/
def goArg : Target → Int
  | .top => 0
  | .bottom => -1
  | .record n => n

/-- `self.visit(ctx.expr()) or 1`, vfp2py_convert_visitor.py:1613: the number passed to `DB.skip`.
The converter sees the number 0 itself, which is false; other expressions are code, which is true. -/
def skipArg : Amount → Int
  | .omitted => 1
  | .const n => if n = 0 then 1 else n
  | .code n => n

/-- vfp2py_convert_visitor.py:1520-1528, 1611-1614 -/
inductive Move where
  | go (t : Target)
  | skip (a : Amount)
  deriving DecidableEq, Repr

/-- A GO or SKIP statement for the table `sel` (`IN`). vfp2py_convert_visitor.py:1520-1528, 1611-1614 -/
def move (db : DB ρ) (sel : Sel) : Move → DB ρ × Option Err
  | .go t => gotoCmd db sel (goArg t)
  | .skip a => skipCmd db sel (skipArg a)

/-- Statements one after the other; an exception ends the program. vfp2py_convert_visitor.py:219-225 -/
def moves (db : DB ρ) (sel : Sel) : List Move → DB ρ × Option Err
  | [] => (db, none)
  | m :: ms =>
    match move db sel m with
    | (db, some e) => (db, some e)
    | (db, none) => moves db sel ms

/-- `table.bof` of the `dbf` package: there is no record before the current one. vfpdatabase.py:302-303 -/
def WS.bof (w : WS ρ) : Bool := decide (w.index ≤ 0)

/-- `bof`, vfpdatabase.py:302-303. -/
def bof (db : DB ρ) (sel : Sel) : Except Err Bool :=
  match tableInfo db sel with
  | .ok w => .ok (WS.bof w)
  | .error e => .error e

/-- `reccount`, vfpdatabase.py:293-297. -/
def reccount (db : DB ρ) : Int :=
  match tableInfo db (.num db.current) with
  | .ok w => w.recs.length
  | .error _ => 0

/-- `DO WHILE NOT EOF()`, the records being collected, `SKIP`, `ENDDO`, as the converter writes it
(`while not DB.eof():` … `DB.skip(None, 1)`, vfp2py_convert_visitor.py:476-480, 1611-1614). -/
def untilEof : Nat → DB ρ → DB ρ × List ρ × Option Err
  | 0, db => (db, [], some .valueError)
  | fuel + 1, db =>
    match eof db .none with
    | .error e => (db, [], some e)
    | .ok true => (db, [], none)
    | .ok false =>
      let seen : List ρ := match tableInfo db .none with
        | .ok w => w.record.toList
        | .error _ => []
      match move db .none (.skip .omitted) with
      | (db, some e) => (db, seen, some e)
      | (db, none) =>
        let r := untilEof fuel db
        (r.1, seen ++ r.2.1, r.2.2)

end Model.Moves
