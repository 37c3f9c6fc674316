/-!
# `@ .. SAY`

`visitAtPos` (`/repo/vfp2py/vfp2py_convert_visitor.py` 415-422) with `getCtxText` (154-157) and
`add_indents` (`/repo/vfp2py/vfp2py.py` 123-132): the statement becomes a call of `print`, followed by
a comment with the text of the statement.  The tokens of a continuation (a semicolon and a line end,
`LINECONT` of `VisualFoxpro9.g4` 756) are part of that text.

Simplifications: the converted expression is given as text; the formatting by autopep8 (vfp2py.py 487-488),
which keeps the lines of the code, is left out.
-/
namespace Model.AtSay

/-- Text as a list of characters, vfp2py_convert_visitor.py:154-157 -/
abbrev Str := List Char

/-- The statement: the texts of its tokens, the hidden ones included, and the code of the expressions
behind SAY. vfp2py_convert_visitor.py:415-422 -/
structure Stmt where
  tokens : List Str
  say : List Str

/-- `getCtxText`, vfp2py_convert_visitor.py:154-157 -/
def ctxText (s : Stmt) : Str := s.tokens.flatten

/-- `visitAtPos`, vfp2py_convert_visitor.py:415-422; `none`: an exception. -/
def visitAtPos (s : Stmt) : Option Str :=
  match s.say with
  | [] => some ("print() # ".toList ++ ctxText s)
  | [e] => some ("print(".toList ++ e ++ ") # ".toList ++ ctxText s)
  | _ => none

/-- One line of `add_indents`, vfp2py.py:129 -/
def indented (n : Nat) (code : Str) : Str := List.replicate (4 * n) ' ' ++ code

end Model.AtSay
