import Verif.Py.NameLit
/-!
# Names of variables and procedures in the generated module, and printed lines

`visitIdentifier` (convert visitor 1396-1402), `scopeId` (972-987), `valid_identifier` (126-127), the
headers of procedures and imports in `visitPrg` (159-187), and `visitPrintStmt` (405-412).
-/
namespace Model.ModuleNames

/-- Text as a list of characters; a Python `str` at vfp2py_convert_visitor.py:126-187. -/
abbrev Str := List Char

/-- `visitIdentifier`, 1396-1402. -/
def identifier (s : Str) : Str :=
  let t := s.map Char.toLower
  if t = "class".toList then "classtype".toList else t

/-- `keyword.kwlist` of Python 3. vfp2py_convert_visitor.py:127 -/
def keywords : List Str :=
  names["False", "None", "True", "and", "as", "assert", "async", "await", "break", "class", "continue", "def", "del", "elif", "else",
    "except", "finally", "for", "from", "global", "if", "import", "in", "is", "lambda", "nonlocal", "not", "or", "pass", "raise",
    "return", "try", "while", "with", "yield"]

/-- `\w`, for characters of names. vfp2py_convert_visitor.py:127 -/
def isWord (c : Char) : Bool := c.isAlphanum || c == '_'

/-- `valid_identifier`, 126-127. -/
def validIdentifier (s : Str) : Bool := !s.isEmpty && s.all isWord && !keywords.contains s

/-- Python code that accesses a variable or a function: `scope.name` or `scope[code]`. vfp2py_convert_visitor.py:972-987 -/
inductive Access
  | attr (scope : Str) (name : Str)
  | index (scope : Str) (code : Str)
  | self
  | parentform
  /-- a name alone, which is a variable of the Python function -/
  | bare (name : Str)
  deriving DecidableEq

/-- `scopeId` of a variable, 972-987, with scopes enabled. The identifier is a `CodeStr`, so it is written
between the brackets without quotes. -/
def scopeVal (id : Str) : Access :=
  if id = "this".toList then .self
  else if id = "thisform".toList then .parentform
  else if validIdentifier id then .attr "S".toList id
  else .index "S".toList id

/-- `scopeId` of a function, vfp2py_convert_visitor.py:972-987, called with a `str` (969, 632), so it is written
between the brackets with quotes. -/
def scopeFunc (id : Str) : Access :=
  if validIdentifier id then .attr "F".toList id else .index "F".toList ('\'' :: id ++ ['\''])

/-- Python's `islower`, for ASCII: there is a letter, and none is a capital letter. vfp2py_convert_visitor.py:972-987 -/
def islower (s : Str) : Bool := s.any Char.isLower && !s.any Char.isUpper

/-- The code of a variable of the source: `createIdAttr` without trailer, 1004-1006. -/
def variable_ (s : Str) : Access :=
  if islower (identifier s) then scopeVal (identifier s) else .bare (identifier s)

/-! ### The module -/

/-- What a name of the module means. vfp2py_convert_visitor.py:159-187 -/
inductive Binding
  /-- the procedure with this position in the file -/
  | proc (i : Nat)
  /-- a part of the library or of Python -/
  | helper
  | unknown
  deriving DecidableEq

/-- Names with small letters that generated code uses: the imports of `visitPrg` (165-168) and of single functions, and built-in
functions of Python. -/
def helpers : List Str :=
  names["vfpfunc", "parameters", "lparameters", "vfpclass", "dt", "os", "math", "random", "base64", "shutil", "subprocess", "sys",
    "send2trash", "print", "len", "int", "float", "ord", "chr", "abs", "round", "max", "min", "sum", "any", "all", "range", "open",
    "getattr", "setattr", "locals", "super", "bool", "str"]

/-- `def name():` of the procedures in their order; a later one replaces what was there, `visitPrg` 171-180. -/
def lookupFrom (n : Str) : Nat → List Str → Binding → Binding
  | _, [], b => b
  | i, p :: ps, b => lookupFrom n (i + 1) ps (if identifier p = n then .proc i else b)

/-- The meaning of a name in a module with these procedures. Python on the code of vfp2py_convert_visitor.py:159-187 -/
def lookup (procs : List Str) (n : Str) : Binding := lookupFrom n 0 procs (if helpers.contains n then .helper else .unknown)

/-- Whether Python accepts `def name():`. Python on the code of vfp2py_convert_visitor.py:178 -/
def defAccepted (p : Str) : Bool := validIdentifier (identifier p)

/-! ### `?` and `??` -/

/-- A statement with one or two question marks and the texts of its expressions. vfp2py_convert_visitor.py:406-413 -/
structure Print where
  marks : Nat
  args : List Str

/-- The call that it becomes: `visitPrintStmt`, 405-412. -/
structure PrintCall where
  args : List Str
  ending : Str

/-- vfp2py_convert_visitor.py:406-413 -/
def printStmt (p : Print) : PrintCall := ⟨p.args, if 1 < p.marks then [] else ['\n']⟩

/-- Python's `print` of texts. Called by the code of vfp2py_convert_visitor.py:413 -/
def printed (c : PrintCall) : Str := [' '].intercalate c.args ++ c.ending

/-- The output of a list of statements. Repeated code of vfp2py_convert_visitor.py:413 -/
def output (ps : List Print) : Str := ps.flatMap fun p => printed (printStmt p)

end Model.ModuleNames
