/-!
# Comment lines

Text is a list of characters. Which of several ways to match a regular expression is
taken is left open: the result of a comment is a relation.
-/
namespace Model.Comments

/-- Text as a list of characters; a Python `str` at vfp2py_convert_visitor.py:204-217. -/
abbrev Str := List Char

/-- White space for `\s` and `strip`: the ASCII characters (other white space is not
considered). vfp2py_convert_visitor.py:205, 214-216 -/
def ws (c : Char) : Bool := c = ' ' || c = '\t' || c = '\n' || c = '\r' || c = '\x0b' || c = '\x0c'

/-- `str.strip()`. vfp2py_convert_visitor.py:214-216 -/
def strip (s : Str) : Str := ((s.dropWhile ws).reverse.dropWhile ws).reverse

/-- `str.split('\n')`. vfp2py_convert_visitor.py:216 -/
def splitLines : Str → List Str
  | [] => [[]]
  | '\n' :: s => [] :: splitLines s
  | c :: s =>
    match splitLines s with
    | l :: ls => (c :: l) :: ls
    | [] => [[c]]

/-- The lines for a statement that could not be converted
(vfp2py_convert_visitor.py 199-201). -/
def fixMe (source : Str) : List Str :=
  ((splitLines source).filter fun l => !l.isEmpty).map fun l => "#FIX ME: ".toList ++ l

/-- `(&&|\*!\*|\**)`. vfp2py_convert_visitor.py:205 -/
def Group1 (a : Str) : Prop := a = ['&', '&'] ∨ a = ['*', '!', '*'] ∨ a.all (· = '*') = true

/-- `(.*[^*; ]\s*|.*[^* ];\s*|;\s*)?`; `none` if the group did not match. vfp2py_convert_visitor.py:205 -/
def Group2 : Option Str → Prop
  | none => True
  | some b =>
    (∃ p c w, b = p ++ c :: w ∧ c ≠ '*' ∧ c ≠ ';' ∧ c ≠ ' ' ∧ w.all ws = true ∧ '\n' ∉ p) ∨
    (∃ p c w, b = p ++ c :: ';' :: w ∧ c ≠ '*' ∧ c ≠ ' ' ∧ w.all ws = true ∧ '\n' ∉ p) ∨
    (∃ w, b = ';' :: w ∧ w.all ws = true)

/-- A match of the regular expression of `visitLineComment`
(vfp2py_convert_visitor.py 205) with its groups. -/
def Match (s a : Str) (b : Option Str) (c : Str) : Prop :=
  ∃ w1 w2 e, s = w1 ++ a ++ b.getD [] ++ c ++ w2 ++ e ∧ w1.all ws = true ∧ Group1 a ∧ Group2 b ∧ c.all (· = '*') = true ∧
    w2.all ws = true ∧ e.all (· = ';') = true

/-- `start` (vfp2py_convert_visitor.py 210). -/
def startOf (a : Str) : Str := if a = [] ∨ a = ['&', '&'] ∨ a = ['*', '!', '*'] then ['*'] else a

/-- `middle` (vfp2py_convert_visitor.py 211-214). -/
def middleOf (a : Str) (b : Option Str) (c : Str) : Str :=
  if (startOf a).length = 1 ∧ c = [] then strip (b.getD []) else b.getD []

/-- `repl` (vfp2py_convert_visitor.py 206-215). -/
def repl (a : Str) (b : Option Str) (c : Str) : Str :=
  if a = [] ∧ b.getD [] = [] ∧ c = [] then []
  else strip (List.replicate (startOf a).length '#' ++ middleOf a b c ++ List.replicate c.length '#')

/-- One line of a comment (vfp2py_convert_visitor.py 216-217): `comment` has been
stripped; a line that does not match is left as it is. -/
def Converted (comment out : Str) : Prop :=
  (∃ a b c, Match comment a b c ∧ out = repl a b c) ∨ ((∀ a b c, ¬ Match comment a b c) ∧ out = comment)

end Model.Comments
