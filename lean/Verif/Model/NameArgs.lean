/-!
# Names written in commands

The names of files, tables, procedures and so on in commands (the rule `specialExpr` of the grammar):
`TreeCleanVisitor.visitSpecialExpr` and `contains_exceptions`, vfp2py.py:134-158, and `visitSpecialExpr`, `visitPathname`,
vfp2py_convert_visitor.py:1152-1157.

The parser takes such a name for an expression if it can, otherwise for a `pathname` (VisualFoxpro9.g4:333-409).
Simplifications: the second parse of an expression as a path gives the same text, which needs operators that
are path elements (`+ - ! # == <> != % = ^ $`, VisualFoxpro9.g4:378-404; what becomes of `a/b` or `a*b` is up to the recovery of the parser and is not
modelled); lines with `&name` never get here, they are one token for the parser (VisualFoxpro9.g4:758); `CAST`, references and the prefixes `.` and `class::` are left out; the code of an expression
that is not a string constant is given by its value.
-/
namespace Model.NameArgs

/-- Text as a list of characters; a Python `str` at vfp2py_convert_visitor.py:1152-1157. -/
abbrev Str := List Char

/-- vfp2py_convert_visitor.py:1152-1154 -/
def lower (s : Str) : Str := s.map Char.toLower

/-- What follows a name: `(args)` or `[args]` as written, `.name`.
VisualFoxpro9.g4 rule `trailer`, vfp2py_convert_visitor.py:1008-1022 -/
inductive Trailer where
  | call (text : Str)
  | ident (name : Str)
  deriving DecidableEq, Repr

/-- `getText`, vfp2py.py:141-158 -/
def Trailer.text : Trailer → Str
  | .call t => t
  | .ident n => '.' :: n

/-- An expression of the grammar. VisualFoxpro9.g4:333-409 -/
inductive E where
  /-- `'(' expr ')'` -/
  | sub (e : E)
  /-- A sign or a negation. -/
  | un (op : Str) (e : E)
  | bin (op : Str) (l r : E)
  /-- A string constant with its delimiters. -/
  | str (opening : Char) (content : Str) (closing : Char)
  /-- Another constant as written. -/
  | const (text : Str)
  | atom (name : Str) (trailers : List Trailer)
  deriving DecidableEq, Repr

/-- The text of an expression without blanks between its tokens (`getText`). vfp2py.py:141-158 -/
def E.text : E → Str
  | .sub e => '(' :: e.text ++ [')']
  | .un op e => op ++ e.text
  | .bin op l r => l.text ++ op ++ r.text
  | .str a s b => a :: s ++ [b]
  | .const t => t
  | .atom n ts => n ++ ts.flatMap Trailer.text

/-- `contains_exceptions`, vfp2py.py:134-138. -/
def containsExceptions : E → Bool
  | .atom _ (.call _ :: _) => true
  | .atom _ _ => false
  | .str _ _ _ => true
  | .const _ => true
  | .sub _ => true
  | .un _ e => containsExceptions e
  | .bin _ l r => containsExceptions l || containsExceptions r

/-- A name in a command as parsed; `blanks` says whether there are blanks between the tokens of the expression
(blanks in a string constant are tokens, too). vfp2py_convert_visitor.py:1152-1157; VisualFoxpro9.g4:333-409 -/
inductive Special where
  | expr (e : E) (blanks : Bool)
  | path (text : Str)
  deriving DecidableEq, Repr

/-- `TreeCleanVisitor.visitSpecialExpr`, vfp2py.py:141-158. -/
def clean : Special → Special
  | .path t => .path t
  | .expr e blanks => if !(blanks || containsExceptions e) then .path e.text else .expr e blanks

/-- The argument in the generated code: a string constant or an expression. vfp2py_convert_visitor.py:1152-1157 -/
inductive Code where
  | literal (s : Str)
  | code (e : E)
  deriving DecidableEq, Repr

/-- `visitSpecialExpr`, vfp2py_convert_visitor.py:1152-1157: string constants in lower case.  The code of a
parenthesised string constant is the constant. -/
def visitExpr : E → Code
  | .str _ s _ => .literal (lower s)
  | .sub e => match visitExpr e with
    | .literal s => .literal s
    | .code e => .code (.sub e)
  | e => .code e

/-- vfp2py_convert_visitor.py:1152-1157 -/
def visit (a : Special) : Code :=
  match clean a with
  | .path t => .literal (lower t)
  | .expr e _ => visitExpr e

/-- The value at run time; `ev` gives the values of expressions. Python on the code of vfp2py_convert_visitor.py:1152-1157 -/
def value (ev : E → Str) (a : Special) : Str :=
  match visit a with
  | .literal s => s
  | .code e => ev e

end Model.NameArgs
