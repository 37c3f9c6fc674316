import Verif.Py.Seq
/-!
# FoxPro arrays

Source: `/repo/vfp2py/vfpfunc.py`, class `Array` (lines 874-941), and the
conversion of ASCAN (`vfp2py_convert_visitor.py:675-681`).

Simplifications: element values are any type `α` with decidable equality and a
default (`False`); dimensions and subscripts are integers (`int(...)` of the
caller's value has been taken); slices have no step (ASCAN never gives one).
-/
namespace Model
open Py

/-- Exceptions of the array operations. vfpfunc.py:874-941 raise these -/
inductive ArrErr where
  | indexError | zeroDivision | keyError | typeError
  deriving DecidableEq, Repr

/-- The attributes of an `Array` object. vfpfunc.py:875-882 -/
structure Arr (α : Type) where
  columns : Bool
  offset : Int
  dim1 : Int
  data : List α
  deriving DecidableEq, Repr

namespace Arr
variable {α : Type}

/-- `__init__`, vfpfunc.py:875-881. -/
def init (dflt : α) (dim1 : Int) (dim2 : Int := 0) (offset : Int := 0) : Arr α :=
  let d2 := if dim2 = 0 then 1 else dim2
  { columns := decide (dim2 ≠ 0), offset := offset, dim1 := dim1,
    data := repeatN (repeatN [dflt] dim1) d2 }

/-- `__len__`, vfpfunc.py:918-919. -/
def len (a : Arr α) : Nat := a.data.length

/-- `_get_index`, vfpfunc.py:896-905, for two subscripts. -/
def getIndex (a : Arr α) (i j : Int) : Except ArrErr Int :=
  if a.dim1 = 0 then .error .zeroDivision
  else
    let ind := (Int.fdiv a.len a.dim1) * (i - 1) + (j - 1) - a.offset
    if ind < 0 then .error .indexError else .ok ind

/-- `__getitem__` with two subscripts, vfpfunc.py:907-910. -/
def get (a : Arr α) (i j : Int) : Except ArrErr α :=
  match a.getIndex i j with
  | .error e => .error e
  | .ok k =>
    match index a.data k with
    | some v => .ok v
    | none => .error .indexError

/-- `__setitem__` with two subscripts, vfpfunc.py:912-913. -/
def set (a : Arr α) (i j : Int) (v : α) : Except ArrErr (Arr α) :=
  match a.getIndex i j with
  | .error e => .error e
  | .ok k =>
    if k < a.len then .ok { a with data := a.data.set k.toNat v } else .error .indexError

/-- One subscript means `(i, 1)`, vfpfunc.py:897-900. -/
def get1 (a : Arr α) (i : Int) : Except ArrErr α := a.get i 1

/-- One subscript means `(i, 1)`, vfpfunc.py:897-900. -/
def set1 (a : Arr α) (i : Int) (v : α) : Except ArrErr (Arr α) := a.set i 1 v

/-- `alen`, vfpfunc.py:921-928.  The dictionary is built before it is indexed, so
a zero `dim1` raises for every `arr_attr`. -/
def alen (a : Arr α) (attr : Int) : Except ArrErr Int :=
  if attr = 2 ∧ a.columns = false then .ok 0
  else if a.dim1 = 0 then .error .zeroDivision
  else if attr = 0 then .ok a.len
  else if attr = 1 then .ok a.dim1
  else if attr = 2 then .ok (Int.fdiv a.len a.dim1)
  else .error .keyError

/-- `_subarray`, vfpfunc.py:884-895: `self.data[start-1 : stop-1]`, with
`ind.start` as the offset of the new array (`None` when omitted: then `index`
raises TypeError; ASCAN always gives a start). -/
def subarray (a : Arr α) (start : Int) (stop : Option Int) : Arr α :=
  let d := slice a.data (some (start - 1)) (stop.map (· - 1))
  { columns := true, offset := start - 1, dim1 := d.length, data := d }

/-- `index`, vfpfunc.py:930-934. -/
def indexVal [DecidableEq α] (a : Arr α) (v : α) : Int :=
  match indexOf a.data v with
  | some i => (i : Int) + 1 + a.offset
  | none => 0

/-- The code generated for ASCAN (vfp2py_convert_visitor.py:675-681):
`a.index(v)`, `a[s:].index(v)` or `a[s:(s + n)].index(v)`. -/
def ascan [DecidableEq α] (a : Arr α) (v : α) : Option (Int × Option Int) → Int
  | none => a.indexVal v
  | some (s, none) => (a.subarray s none).indexVal v
  | some (s, some n) => (a.subarray s (some (s + n))).indexVal v

end Arr

/-- One write to an array. The arguments of `__setitem__`, vfpfunc.py:912 -/
structure ArrWrite (α : Type) where
  i : Int
  j : Int
  v : α

/-- A history of writes; a failing write stops the program. Repeated vfpfunc.py:912-913 -/
def Arr.writes {α : Type} (a : Arr α) : List (ArrWrite α) → Except ArrErr (Arr α)
  | [] => .ok a
  | w :: ws =>
    match a.set w.i w.j w.v with
    | .ok a' => a'.writes ws
    | .error e => .error e

end Model
