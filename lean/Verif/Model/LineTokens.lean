/-!
# Where a comment begins in a line

The token `COMMENT` (VisualFoxpro9.g4:754): `'&&' (~'\n')*`.  String constants are no tokens but a rule of the
parser (VisualFoxpro9.g4:415), so the lexer sees `&&` within them, too.  The comment is hidden from the parser
(`channel(1)`) and moved to a line of its own by the preprocessor (vfp2py.py:103-121).

Simplifications: one physical line without `;` at its end; no line with a macro (these are one token, see MacroLines).
-/
namespace Model.LineTokens

/-- Text as a list of characters; a Python `str` at VisualFoxpro9.g4:754. -/
abbrev Str := List Char

/-- The text before the token `COMMENT` and the comment, if there is one.  No other token contains two `&`.
VisualFoxpro9.g4:754 -/
def split : Str → Str × Option Str
  | [] => ([], none)
  | '&' :: '&' :: s => ([], some s)
  | c :: s => (c :: (split s).1, (split s).2)

/-- What the parser gets of a line. vfp2py.py:103-121 -/
def statement (l : Str) : Str := (split l).1

end Model.LineTokens
