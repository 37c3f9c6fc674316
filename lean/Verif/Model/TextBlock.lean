import Verif.Model.PyVal
/-!
# TEXT ... ENDTEXT

`visitTextBlock` and `visitTextChunk` (vfp2py_convert_visitor.py 1942-1960) and the run-time
function `text` (vfpfunc.py 1685-1689).  Characters up to U+00FF.

Simplifications: the chunk is the text between the end of the TEXT line and ENDTEXT as the
preprocessor leaves it, without carriage returns (vfp2py.py 497 removes them); that the lines
survive as Python literals is C41.
-/
namespace Model.TextBlock
open PyVal (strip)

/-- Text as a list of characters; a Python `str` at vfp2py_convert_visitor.py:1942-1960. -/
abbrev Str := List Char

/-- The ends of lines for `str.splitlines`. vfp2py_convert_visitor.py:1954-1960 -/
def isBreak (c : Char) : Bool :=
  (10 ≤ c.toNat && c.toNat ≤ 13) || (28 ≤ c.toNat && c.toNat ≤ 30) || c.toNat = 133

/-- `splitlines` of a text without carriage returns; `cur` is the line read so far. vfp2py_convert_visitor.py:1954-1960 -/
def splitFrom (cur : Str) : Str → List Str
  | [] => if cur = [] then [] else [cur]
  | c :: s => if isBreak c then cur :: splitFrom [] s else splitFrom (cur ++ [c]) s

/-- `visitTextChunk`, vfp2py_convert_visitor.py:1954-1960: the list that is written. -/
def textChunk (chunk : Str) : List Str := splitFrom [] chunk

/-- vfpfunc.py:1686. -/
def joined (lines : List Str) : Str := (lines.map strip).flatten

/-- What is written behind TEXT, VisualFoxpro9.g4:232 (FLAGS and PRETEXT with the values of the
expressions). -/
structure Clauses where
  to_ : Bool := false
  additive : Bool := false
  textmerge : Bool := false
  noshow : Bool := false
  flags : Option Int := none
  pretext : Option Int := none
  deriving DecidableEq, Repr

/-- The value assigned to the variable after TO, and the text printed.
vfp2py_convert_visitor.py:1942-1952; vfpfunc.py:1685-1689 -/
structure Effect where
  assigned : Option Str
  printed : Option Str
  deriving DecidableEq, Repr

/-- `visitTextBlock`, vfp2py_convert_visitor.py:1942-1952, and `text`; `old` is the value that the
variable has before. -/
def textBlock (c : Clauses) (chunk : Str) (_old : Str) : Effect :=
  let t := joined (textChunk chunk)
  { assigned := if c.to_ then some t else none
    printed := if c.noshow then none else some t }

end Model.TextBlock
