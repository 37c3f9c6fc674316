/-!
# Lines with `&`

The token `MACROLINE` (VisualFoxpro9.g4:758), the rule `line` (34-38) and `visitLine`
(vfp2py_convert_visitor.py:189-202).

Simplifications: a line is one physical line; of the characters that may begin a name (VisualFoxpro9.g4:1089-1091 and
on) those of ASCII are considered; other lines are given by what they do (`step`).
-/
namespace Model.MacroLines

/-- Text as a list of characters; a Python `str` at vfp2py_convert_visitor.py:189-202. -/
abbrev Str := List Char

/-- `ID_START`. VisualFoxpro9.g4:1089-1091 -/
def idStart (c : Char) : Bool := c = '_' || c.isAlpha

/-- `~[\n&]* '&' ID (~'\n')*` at the beginning of a line.  It takes the whole line, more than any other token, unless
there is a comment `&&`, which it does not match. VisualFoxpro9.g4:758 -/
def macroToken : Str → Bool
  | [] => false
  | '&' :: c :: _ => idStart c
  | ['&'] => false
  | _ :: s => macroToken s

/-- What a line of the generated code does: the call of a function that `vfpfunc` does not have, or what the visitors
of statements and comments give. vfp2py_convert_visitor.py:189-202 -/
inductive Code where
  | macroEval (text : Str)
  | other (text : Str)
  deriving DecidableEq, Repr

/-- vfp2py_convert_visitor.py:189-202 -/
def visitLine (l : Str) : Code := if macroToken l then .macroEval l else .other l

/-- There is no `macro_eval` in vfpfunc.py. -/
inductive Error where
  | attributeError
  deriving DecidableEq, Repr

/-- The run of the generated lines; `step` is what the other lines do. Python on the code of vfp2py_convert_visitor.py:189-202 -/
def run {σ : Type} (step : Str → σ → σ) : List Str → σ → Except Error σ
  | [], s => .ok s
  | l :: ls, s =>
    match visitLine l with
    | .macroEval _ => .error .attributeError
    | .other l => run step ls (step l s)

end Model.MacroLines
