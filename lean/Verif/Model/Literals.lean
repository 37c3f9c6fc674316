import Verif.Spec.Literals
/-!
# Conversion of literals

Strings are lists of characters. Floating point numbers are kept as exact decimal
numbers: the rounding to binary and the shortest decimal text that Python prints for
them are not modelled.
-/
namespace Model.Literals
open Spec.Literals (Dec hexVal)

/-- Text as a list of characters; a Python `str` at vfp2py_convert_visitor.py:1159-1205. -/
abbrev Str := List Char

/-! ## Strings -/

/-- Part of `repr` of a string, called by vfp2py_convert_visitor.py:106-124 -/
def hexDigit (n : Nat) : Char := if n < 10 then Char.ofNat (48 + n) else Char.ofNat (87 + n)

/-- Hexadecimal digits of `n`, most significant first, as many as asked for.
Part of `repr` of a string, called by vfp2py_convert_visitor.py:106-124 -/
def hexDigits : Nat → Nat → Str
  | 0, _ => []
  | k + 1, n => hexDigit (n / 16 ^ k % 16) :: hexDigits k n

/-- One character of Python's `repr` of a string between quotes `q`; `printable` is
Python's table of printable characters outside ASCII. Called by vfp2py_convert_visitor.py:106-124 -/
def escape (printable : Char → Bool) (q c : Char) : Str :=
  if c = q ∨ c = '\\' then ['\\', c]
  else if c = '\t' then ['\\', 't']
  else if c = '\n' then ['\\', 'n']
  else if c = '\r' then ['\\', 'r']
  else if c.toNat < 32 ∨ c.toNat = 127 then '\\' :: 'x' :: hexDigits 2 c.toNat
  else if c.toNat < 127 then [c]
  else if printable c then [c]
  else if c.toNat < 256 then '\\' :: 'x' :: hexDigits 2 c.toNat
  else if c.toNat < 65536 then '\\' :: 'u' :: hexDigits 4 c.toNat
  else '\\' :: 'U' :: hexDigits 8 c.toNat

/-- Double quotes are used if the string has a single quote and no double quote.
Part of `repr` of a string, called by vfp2py_convert_visitor.py:106-124 -/
def quoteFor (s : Str) : Char := if '\'' ∈ s ∧ '"' ∉ s then '"' else '\''

/-- `repr` of a string (Python 3), as used by `add_args_to_code` and
`make_func_code` (vfp2py_convert_visitor.py 106-124). -/
def reprStr (printable : Char → Bool) (s : Str) : Str :=
  quoteFor s :: (s.flatMap (escape printable (quoteFor s)) ++ [quoteFor s])

/-- `visitString` (vfp2py_convert_visitor.py 1204-1205): the text of the literal
without its first and last character; `create_string` (117-121) returns it as it is. -/
def visitString (t : Str) : Str := (t.drop 1).dropLast

/-! ## Numbers -/

/-- The result of `convert_number`. vfp2py_convert_visitor.py:1159-1169 -/
inductive Num
  | code (t : Str)
  | int (n : Nat)
  | float (d : Dec)
deriving DecidableEq

/-- vfp2py_convert_visitor.py:1160-1169 -/
def lower (t : Str) : Str := t.map Char.toLower

/-- `int(num)` for text of digits. vfp2py_convert_visitor.py:1159-1169 -/
def pyInt (t : Str) : Option Nat :=
  if t ≠ [] ∧ t.all Spec.Literals.isDigit then some (Spec.Literals.number 10 t) else none

/-- `float(num)` for digits with a point, without rounding. vfp2py_convert_visitor.py:1159-1169 -/
def pyFloat (t : Str) : Option Dec :=
  let a := t.takeWhile (· ≠ '.')
  match t.dropWhile (· ≠ '.') with
  | '.' :: b =>
    if a ++ b ≠ [] ∧ (a ++ b).all Spec.Literals.isDigit then some ⟨Spec.Literals.number 10 (a ++ b), -(b.length : Int)⟩ else none
  | _ => none

/-- `convert_number` (vfp2py_convert_visitor.py 1159-1169). `none` is the ValueError
of `float`. -/
def convertNumber (t : Str) : Option Num :=
  let num := lower t
  if 'x' ∈ num ∨ 'e' ∈ num then
    if ('x' ∉ num ∧ num.getLast? = some 'e') ∨ ('x' ∈ num ∧ num.length = 2) then some (.code (num ++ ['0']))
    else some (.code num)
  else
    match pyInt num with
    | some n => some (.int n)
    | none => (pyFloat num).map .float

/-- The pairs of `zip(it, it)` for one iterator. vfp2py_convert_visitor.py:1176-1181 -/
def pairs : Str → List (Char × Char)
  | a :: b :: r => (a, b) :: pairs r
  | _ => []

/-- `visitBlob` (vfp2py_convert_visitor.py 1176-1181). -/
def visitBlob (t : Str) : List Nat :=
  let blob := t.drop 2
  let blob := if blob.length % 2 = 1 then '0' :: blob else blob
  (pairs blob).map fun p => Spec.Literals.number 16 [p.1, p.2]

/-- `visitBoolOrNull` (vfp2py_convert_visitor.py 1183-1189) for the letter between the
points; `none` is the exception. -/
def visitBool (t : Str) : Option Bool :=
  match lower t with
  | [c] => if c = 'f' ∨ c = 'n' ∨ c = 't' ∨ c = 'y' then some (decide (c = 't' ∨ c = 'y')) else none
  | _ => none

/-- `visitDate` (vfp2py_convert_visitor.py 1191-1202) for integer numbers and the
letters behind the time; the result is the arguments of `dt.date` or `dt.datetime`,
`none` the exception. -/
def visitDate (numbers : List Nat) (suffix : Str) : Option (List Nat) :=
  let s := lower suffix
  if s = [] ∨ s = ['a'] ∨ s = ['a', 'm'] then some numbers
  else if s = ['p'] ∨ s = ['p', 'm'] then
    match numbers with
    | [y, m, d] => none
    | y :: m :: d :: h :: r => some (y :: m :: d :: (h + 12) :: r)
    | _ => none
  else none

end Model.Literals
