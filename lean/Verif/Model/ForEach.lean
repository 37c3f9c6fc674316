import Verif.Model.Array
/-!
# FOR EACH

`visitForStart` with EACH, vfp2py_convert_visitor.py:462-471: `for x in array:`, and `Array.__iter__`,
vfpfunc.py:936-937, which is the iterator of the list of elements.

The lines of the loop are an arbitrary step on the array and the rest of the state; `bind` is the assignment of an
element to the variable of the loop.  No method of `Array` changes the length of the list (912-913), so the number
of steps is at most its length at the beginning.
-/
namespace Model.ForEach
open Model (Arr)

variable {α γ : Type}

/-- How the lines of a loop end: vfp2py_convert_visitor.py:521-528 -/
inductive Out where
  | next | continue_ | break_
  /-- RETURN or an exception -/
  | leave
  deriving DecidableEq, Repr

/-- `for x in array: ...` from element `i` on: the iterator of a list takes the element that is there at that time.
vfp2py_convert_visitor.py:471; vfpfunc.py:936-937 -/
def loop (bind : γ → α → γ) (body : Arr α × γ → (Arr α × γ) × Out) : Nat → Nat → Arr α × γ → (Arr α × γ) × Out
  | 0, _, s => (s, .next)
  | n + 1, i, s =>
    match s.1.data[i]? with
    | none => (s, .next)
    | some v =>
      match body (s.1, bind s.2 v) with
      | (s', .next) => loop bind body n (i + 1) s'
      | (s', .continue_) => loop bind body n (i + 1) s'
      | (s', .break_) => (s', .next)
      | (s', .leave) => (s', .leave)

/-- The statement. vfp2py_convert_visitor.py:462-474 -/
def forEach (bind : γ → α → γ) (body : Arr α × γ → (Arr α × γ) × Out) (s : Arr α × γ) : (Arr α × γ) × Out :=
  loop bind body s.1.data.length 0 s

end Model.ForEach
