/-!
# CAST

Sources: `/repo/vfp2py/vfp2py_convert_visitor.py`, `datatypes_map` (1035-1067), `visitCastExpr`
(1069-1087), `visitAsType` (562-563), `visitIdentifier` (1396-1402); the generated code calls
`str`, `float`, `int`, `bool`, `bytearray`, `dt.date` and `dt.datetime` of Python 3.

Simplifications: numbers are integers; the fractions and special values that `float` reads in texts
are given by `reals`, their whole part by `trunc`, the texts of days and of byte arrays by `iso` and `show`.  Letters are those of ASCII.  The name of a type
is given with what stands behind it in parentheses, which becomes part of the text looked up.
-/
namespace Model.Cast

/-- Text as a list of characters; a Python `str` at vfp2py_convert_visitor.py:1069-1087. -/
abbrev Str := List Char

/-- The types of FoxPro. vfp2py_convert_visitor.py:1035-1067 -/
inductive DataType where
  | blob | character | currency | date | datetime | double | float | general | integer | logical | memo | numeric | varbinary | varchar
  deriving DecidableEq, Repr

open DataType in
/-- `datatypes_map`, vfp2py_convert_visitor.py:1035-1067. -/
def datatypesMap : List (String × DataType) :=
  [("w", blob), ("blob", blob), ("c", character), ("char", character), ("character", character), ("y", currency),
   ("currency", currency), ("d", date), ("date", date), ("t", datetime), ("datetime", datetime), ("b", double),
   ("double", double), ("f", float), ("float", float), ("g", general), ("general", general), ("i", integer),
   ("int", integer), ("integer", integer), ("l", logical), ("logical", logical), ("m", memo), ("memo", memo),
   ("n", numeric), ("num", numeric), ("numeric", numeric), ("q", varbinary), ("varbinary", varbinary), ("v", varchar),
   ("varchar", varchar)]

/-- `self.datatypes_map[self.visit(ctx.asType())]`: the name in lower case and its trailer; there is a
KeyError otherwise. vfp2py_convert_visitor.py:1085 -/
def lookup (name : Str) (width : Str) : Option DataType :=
  (datatypesMap.find? fun p => p.1.toList = name.map Char.toLower ++ width).map (·.2)

/-- The functions that are called. vfp2py_convert_visitor.py:1070-1085 -/
inductive Func where
  | str | float | int | bool | bytearray | date | datetime
  deriving DecidableEq, Repr

/-- vfp2py_convert_visitor.py:1070-1085. -/
def func : DataType → Func
  | .character | .varchar | .memo | .general => .str
  | .numeric | .currency | .float | .double => .float
  | .integer => .int
  | .logical => .bool
  | .blob | .varbinary => .bytearray
  | .date => .date
  | .datetime => .datetime

/-- The values the call of vfp2py_convert_visitor.py:1087 may get -/
inductive Val where
  | null
  | num (n : Int)
  | bool (b : Bool)
  | text (s : Str)
  /-- A day, by its number. -/
  | day (n : Int)
  | bytes (bs : List Nat)
  /-- A number that is no integer, as `float` reads it. -/
  | real (s : Str)
  deriving DecidableEq, Repr

/-- The decimal digits of a number. Python's `str` of an `int`, called by the code of vfp2py_convert_visitor.py:1087 -/
def digits (n : Int) : Str :=
  if n < 0 then '-' :: Nat.toDigits 10 n.natAbs else Nat.toDigits 10 n.natAbs

/-- White space of `str.strip` in Python's `int`, called by the code of vfp2py_convert_visitor.py:1087 -/
def isBlank (c : Char) : Bool := c = ' ' || c = '\t' || c = '\n' || c = '\r'

/-- Digits with single underscores between them, behind a digit.
Python's `int` of a text, called by the code of vfp2py_convert_visitor.py:1087 -/
def readDigits : Nat → Str → Option Nat
  | n, [] => some n
  | n, '_' :: c :: s => if c.isDigit then readDigits (10 * n + (c.toNat - 48)) s else none
  | n, c :: s => if c.isDigit then readDigits (10 * n + (c.toNat - 48)) s else none

/-- Python's `int` of an unsigned text, called by the code of vfp2py_convert_visitor.py:1087 -/
def readNat : Str → Option Nat
  | [] => none
  | c :: s => if c.isDigit then readDigits (c.toNat - 48) s else none

/-- `s.strip()`. Part of Python's `int` of a text, called by the code of vfp2py_convert_visitor.py:1087 -/
def strip (s : Str) : Str := ((s.dropWhile isBlank).reverse.dropWhile isBlank).reverse

/-- `int(s)`. Called by the code of vfp2py_convert_visitor.py:1087 -/
def readInt (s : Str) : Option Int :=
  match strip s with
  | '-' :: t => (readNat t).map fun n : Nat => -(n : Int)
  | '+' :: t => (readNat t).map Int.ofNat
  | t => (readNat t).map Int.ofNat

/-- What Python does with days and fractions. Called by the code of vfp2py_convert_visitor.py:1087 -/
structure Env where
  iso : Int → Str
  «show» : List Nat → Str
  trunc : Str → Option Int
  reals : Str → Option Val

/-- The call; `none` is an exception.  `dt.date` takes three numbers and `dt.datetime` at least three,
`bytearray` needs an encoding for texts and refuses negative numbers. The code of vfp2py_convert_visitor.py:1087 -/
def call (e : Env) : Func → Val → Option Val
  | .str, .null => some (.text "None".toList)
  | .str, .num n => some (.text (digits n))
  | .str, .bool b => some (.text (if b then "True".toList else "False".toList))
  | .str, .text s => some (.text s)
  | .str, .day n => some (.text (e.iso n))
  | .str, .bytes bs => some (.text (e.show bs))
  | .str, .real s => some (.text s)
  | .float, .num n => some (.num n)
  | .float, .bool b => some (.num (if b then 1 else 0))
  | .float, .text s =>
    match readInt s with
    | some n => some (.num n)
    | none => e.reals s
  | .float, .real s => some (.real s)
  | .float, .bytes bs =>
    match readInt (bs.map Char.ofNat) with
    | some n => some (.num n)
    | none => e.reals (bs.map Char.ofNat)
  | .float, _ => none
  | .int, .num n => some (.num n)
  | .int, .bool b => some (.num (if b then 1 else 0))
  | .int, .text s => (readInt s).map .num
  | .int, .bytes bs => (readInt (bs.map Char.ofNat)).map .num
  | .int, .real s => (e.trunc s).map .num
  | .int, _ => none
  | .bool, .null => some (.bool false)
  | .bool, .num n => some (.bool (n != 0))
  | .bool, .bool b => some (.bool b)
  | .bool, .text s => some (.bool (s != []))
  | .bool, .day _ => some (.bool true)
  | .bool, .bytes bs => some (.bool (bs != []))
  | .bool, .real _ => some (.bool true)
  | .bytearray, .num n => if n < 0 then none else some (.bytes (List.replicate n.toNat 0))
  | .bytearray, .bool b => some (.bytes (List.replicate (if b then 1 else 0) 0))
  | .bytearray, .bytes bs => some (.bytes bs)
  | .bytearray, _ => none
  | .date, _ => none
  | .datetime, _ => none

/-- CAST(v AS name(width)): without a type there is no code for the statement. vfp2py_convert_visitor.py:1069-1087 -/
def castAs (e : Env) (name width : Str) (v : Val) : Option Val :=
  (lookup name width).bind fun t => call e (func t) v

end Model.Cast
