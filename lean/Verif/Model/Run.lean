/-!
# RUN and `!`

`visitShellRun`, vfp2py_convert_visitor.py:1893-1906; the rule VisualFoxpro9.g4:225.

Simplifications: a command is the text behind RUN or `!` and an option such as `/N`; blanks are the ASCII ones; lines with `&name` do
not get here (they are macros, VisualFoxpro9.g4:758), so that the treatment of arguments that begin with `&` (1901-1903) only
concerns an `&` without a name behind it and is left out.
-/
namespace Model.Run

/-- Text as a list of characters; a Python `str` at vfp2py_convert_visitor.py:1893-1906. -/
abbrev Str := List Char

/-- White space for `str.split`, vfp2py_convert_visitor.py:1893-1906 -/
def isSpace (c : Char) : Bool := c = ' ' || c = '\t' || c = '\r' || c = '\x0b' || c = '\x0c'

/-- `str.split()`: `cur` is the word that has been begun. vfp2py_convert_visitor.py:1893-1906 -/
def splitFrom (cur : Str) : Str → List Str
  | [] => if cur = [] then [] else [cur]
  | c :: s =>
    if isSpace c then (if cur = [] then splitFrom [] s else cur :: splitFrom [] s)
    else splitFrom (cur ++ [c]) s

/-- The list given to `subprocess.call`: the texts of all tokens put together, stripped and split.
vfp2py_convert_visitor.py:1893-1906 -/
def arguments (command : Str) : List Str := splitFrom [] command

end Model.Run
