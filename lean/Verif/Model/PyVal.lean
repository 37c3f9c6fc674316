import Verif.Model.Strings
import Verif.Spec.FoxExpr
/-!
# Python values

The part of Python's values and operations that converted expressions use: integers,
strings, logical values, `None`, a few built-in functions and string methods. Any
operation outside this part, and any exception, gives the value `err`.
-/
namespace PyVal
open PyExpr (Alg BinOp CmpOp)

/-- Python on the code of vfp2py_convert_visitor.py:587-1255 -/
inductive Val
  | int (n : Int)
  | str (s : List Char)
  | bool (b : Bool)
  | none
  /-- a `datetime.date`, by its `toordinal()` -/
  | date (n : Int)
  /-- a `datetime.timedelta` of whole days -/
  | delta (n : Int)
  /-- a built-in function or module -/
  | obj (s : String)
  /-- a string method bound to its string -/
  | meth (s : List Char) (m : String)
  | err
deriving DecidableEq

/-- Python on the code of vfp2py_convert_visitor.py:615-629 -/
def truth : Val → Bool
  | .int n => n != 0
  | .str s => !s.isEmpty
  | .bool b => b
  | .date _ => true
  | .delta n => n != 0
  | .obj _ => true
  | .meth _ _ => true
  | _ => false

/-- An exception. Python on the code of vfp2py_convert_visitor.py:587-1255 -/
def raises : Val → Bool
  | .err => true
  | _ => false

/-- Operators on integers; bit operators on non-negative ones only, no division.
Python on the code of vfp2py_convert_visitor.py:1207-1252 -/
def binInt : BinOp → Int → Int → Val
  | .add, a, b => .int (a + b)
  | .sub, a, b => .int (a - b)
  | .mul, a, b => .int (a * b)
  | .mod, a, b => if b = 0 then .err else .int (Int.fmod a b)
  | .pow, a, b => if b < 0 then .err else .int (a ^ b.toNat)
  | .band, .ofNat a, .ofNat b => .int (a &&& b : Nat)
  | .bor, .ofNat a, .ofNat b => .int (a ||| b : Nat)
  | .bxor, .ofNat a, .ofNat b => .int (a ^^^ b : Nat)
  | .shl, .ofNat a, .ofNat b => .int (a <<< b : Nat)
  | .shr, .ofNat a, .ofNat b => .int (a >>> b : Nat)
  | _, _, _ => .err

/-- A date, if it is in the range of `datetime.date`. Python on the code of vfp2py_convert_visitor.py:1191-1202, 1213-1252 -/
def mkDate (n : Int) : Val := if 1 ≤ n ∧ n ≤ 3652059 then .date n else .err

/-- The value of one operator, an error for the others. Python on the code of vfp2py_convert_visitor.py:1213-1252 -/
def only (o o' : BinOp) (v : Val) : Val := if o' = o then v else .err

/-- The values of `+` and `-`, an error for the other operators. Python on the code of vfp2py_convert_visitor.py:1213-1252 -/
def addSub (o : BinOp) (v w : Val) : Val := if o = .add then v else if o = .sub then w else .err

/-- Python on the code of vfp2py_convert_visitor.py:1207-1252 -/
def bin (o : BinOp) : Val → Val → Val
  | .int a, .int b => binInt o a b
  | .str a, .str b => only .add o (.str (a ++ b))
  | .int n, .str s => only .mul o (.str (Py.repeatN s n))
  | .str s, .int n => only .mul o (.str (Py.repeatN s n))
  | .date a, .date b => only .sub o (.delta (a - b))
  | .date a, .delta b => addSub o (mkDate (a + b)) (mkDate (a - b))
  | .delta a, .date b => only .add o (mkDate (a + b))
  | .delta a, .delta b => addSub o (.delta (a + b)) (.delta (a - b))
  | _, _ => .err

/-- Logical values are numbers in comparisons. Python on the code of vfp2py_convert_visitor.py:594-613 -/
def num : Val → Val
  | .bool b => .int (if b then 1 else 0)
  | v => v

/-- `<` of strings: by code points. Python on the code of vfp2py_convert_visitor.py:594-613 -/
def ltStr : List Char → List Char → Bool
  | _, [] => false
  | [], _ :: _ => true
  | a :: s, b :: t => if a = b then ltStr s t else decide (a.toNat < b.toNat)

/-- `<` and `>` are `less` and `less` the other way round, `<=` and `>=` the negations.
Python on the code of vfp2py_convert_visitor.py:594-613 -/
def order (less : Bool) (more : Bool) : CmpOp → Val
  | .lt => .bool less
  | .gt => .bool more
  | .le => .bool !more
  | .ge => .bool !less
  | _ => .err

/-- Python on the code of vfp2py_convert_visitor.py:594-613 -/
def cmpOrder (o : CmpOp) : Val → Val → Val
  | .int a, .int b => order (decide (a < b)) (decide (b < a)) o
  | .str a, .str b => order (ltStr a b) (ltStr b a) o
  | .date a, .date b => order (decide (a < b)) (decide (b < a)) o
  | .delta a, .delta b => order (decide (a < b)) (decide (b < a)) o
  | _, _ => .err

/-- The value of an operation on two values, unless one of them is an error.
Python on the code of vfp2py_convert_visitor.py:594-613, 1207-1252 -/
def unlessErr (a b v : Val) : Val := if a = .err then .err else if b = .err then .err else v

/-- Python on the code of vfp2py_convert_visitor.py:594-613 -/
def cmp : CmpOp → Val → Val → Val
  | .eq, a, b => unlessErr a b (.bool (decide (num a = num b)))
  | .ne, a, b => unlessErr a b (.bool (decide (num a ≠ num b)))
  | .isNot, a, b => .bool (decide (a ≠ b))
  | .isIn, .str a, .str b => .bool (Model.Strings.findIdx b a).isSome
  | .isIn, _, _ => .err
  | o, a, b => cmpOrder o (num a) (num b)

/-- `os.path.join` of two components (POSIX). Python on the code of vfp2py_convert_visitor.py:1219-1252 -/
def join2 : Val → Val → Val
  | .str a, .str b =>
    if b.head? = some '/' then .str b
    else if a = [] ∨ a.getLast? = some '/' then .str (a ++ b)
    else .str (a ++ '/' :: b)
  | _, _ => .err

/-- `os.path.join`. Python on the code of vfp2py_convert_visitor.py:1219-1252 -/
def joins : List Val → Val
  | [] => .err
  | v :: vs => vs.foldl join2 v

/-- `s.count(old)`: non-overlapping occurrences from the left. Python on the code of vfp2py_convert_visitor.py:656-960 -/
def countFuel (old : List Char) : Nat → List Char → Nat
  | 0, _ => 0
  | f + 1, s =>
    match Model.Strings.findIdx s old with
    | none => 0
    | some k => countFuel old f (s.drop (k + old.length)) + 1
/-- Python on the code of vfp2py_convert_visitor.py:656-960 -/
def count (s old : List Char) : Nat := if old = [] then s.length + 1 else countFuel old (s.length + 1) s

/-! ### Methods of strings, from the documentation of Python; characters up to U+00FF -/

/-- `c.isspace()`. Python on the code of vfp2py_convert_visitor.py:656-960 -/
def isSpace (c : Char) : Bool :=
  (9 ≤ c.toNat && c.toNat ≤ 13) || (28 ≤ c.toNat && c.toNat ≤ 32) || c.toNat = 133 || c.toNat = 160

/-- Python on the code of vfp2py_convert_visitor.py:656-960 -/
def lstrip (s : List Char) : List Char := s.dropWhile isSpace
/-- Python on the code of vfp2py_convert_visitor.py:656-960 -/
def rstrip (s : List Char) : List Char := (s.reverse.dropWhile isSpace).reverse
/-- Python on the code of vfp2py_convert_visitor.py:656-960 -/
def strip (s : List Char) : List Char := rstrip (lstrip s)

/-- `s.ljust(n, c)`, `s.rjust(n, c)`. Python on the code of vfp2py_convert_visitor.py:656-960 -/
def ljust (s : List Char) (n : Int) (c : Char) : List Char := s ++ List.replicate (n.toNat - s.length) c
/-- Python on the code of vfp2py_convert_visitor.py:656-960 -/
def rjust (s : List Char) (n : Int) (c : Char) : List Char := List.replicate (n.toNat - s.length) c ++ s

/-- `s.center(n, c)`: an odd number of characters to add gives the left side one more exactly if `n`
is odd. Python on the code of vfp2py_convert_visitor.py:656-960 -/
def centerLeft (margin width : Nat) : Nat := margin / 2 + (if margin % 2 = 1 ∧ width % 2 = 1 then 1 else 0)
/-- Python on the code of vfp2py_convert_visitor.py:656-960 -/
def center (s : List Char) (n : Int) (c : Char) : List Char :=
  List.replicate (centerLeft (n.toNat - s.length) n.toNat) c ++ s ++
    List.replicate (n.toNat - s.length - centerLeft (n.toNat - s.length) n.toNat) c

/-- `s.title()`; `after` says that the character before was a letter. Letters are those of ASCII.
Python on the code of vfp2py_convert_visitor.py:656-960 -/
def titleFrom (after : Bool) : List Char → List Char
  | [] => []
  | c :: s => (if after then c.toLower else c.toUpper) :: titleFrom c.isAlpha s
/-- Python on the code of vfp2py_convert_visitor.py:656-960 -/
def title (s : List Char) : List Char := titleFrom false s

/-- `s.isalpha()` and the like: not empty, and every character is one; `islower` and `isupper` ask
for a letter and letters of that case only. Python on the code of vfp2py_convert_visitor.py:656-960 -/
def isalpha (s : List Char) : Bool := !s.isEmpty && s.all Char.isAlpha
/-- Python on the code of vfp2py_convert_visitor.py:656-960 -/
def isdigit (s : List Char) : Bool := !s.isEmpty && s.all Char.isDigit
/-- Python on the code of vfp2py_convert_visitor.py:656-960 -/
def islower (s : List Char) : Bool := s.any Char.isAlpha && s.all (fun c => !c.isUpper)
/-- Python on the code of vfp2py_convert_visitor.py:656-960 -/
def isupper (s : List Char) : Bool := s.any Char.isAlpha && s.all (fun c => !c.isLower)

/-- Methods without arguments. Python on the code of vfp2py_convert_visitor.py:656-960 -/
def callPlain (s : List Char) (m : String) : Val :=
  if m = "lower" then .str (s.map Char.toLower)
  else if m = "upper" then .str (s.map Char.toUpper)
  else if m = "strip" then .str (strip s)
  else if m = "lstrip" then .str (lstrip s)
  else if m = "rstrip" then .str (rstrip s)
  else if m = "title" then .str (title s)
  else if m = "isalpha" then .bool (isalpha s)
  else if m = "isdigit" then .bool (isdigit s)
  else if m = "islower" then .bool (islower s)
  else if m = "isupper" then .bool (isupper s)
  else .err

/-- Methods that fill up to a length. Python on the code of vfp2py_convert_visitor.py:656-960 -/
def callFill (s : List Char) (m : String) (n : Int) (c : Char) : Val :=
  if m = "ljust" then .str (ljust s n c)
  else if m = "rjust" then .str (rjust s n c)
  else if m = "center" then .str (center s n c)
  else .err

/-- Python on the code of vfp2py_convert_visitor.py:656-960 -/
def callMeth (s : List Char) (m : String) (vs : List Val) : Val :=
  match vs with
  | [] => callPlain s m
  | [.int n] => callFill s m n ' '
  | [.int n, .str [c]] => callFill s m n c
  | [.str a] =>
    if m = "find" then .int (Model.Strings.find s a)
    else if m = "rfind" then .int (match Model.Strings.rfindIdx s a with | some k => (k : Int) | none => -1)
    else if m = "count" then .int (count s a)
    else .err
  | _ => .err

/-- Python's `max` (`up`) and `min` of `a` and further integers: the first is kept unless a later one is larger (smaller).
Other values are not modelled. Python on the code of vfp2py_convert_visitor.py:867-868 -/
def extreme (up : Bool) : Int → List Val → Val
  | a, [] => .int a
  | a, .int b :: vs => extreme up (if up then (if a < b then b else a) else (if b < a then b else a)) vs
  | _, _ => .err

/-- `max` and `min` of one integer raise an exception: it is no list. Python on the code of vfp2py_convert_visitor.py:867-868 -/
def extremes (up : Bool) : List Val → Val
  | .int a :: v :: vs => extreme up a (v :: vs)
  | _ => .err

/-- Python on the code of vfp2py_convert_visitor.py:656-960 -/
def callObj (f : String) (vs : List Val) : Val :=
  if f = "os.path.join" then joins vs
  else if f = "max" then extremes true vs
  else if f = "min" then extremes false vs
  else match vs with
    | [.int n] =>
      if f = "int" then .int n
      else if f = "abs" then .int (if n < 0 then -n else n)
      else if f = "chr" then
        (match n with | .ofNat n => if n.isValidChar then .str [Char.ofNat n] else .err | _ => .err)
      else .err
    | [.bool b] => if f = "int" then .int (if b then 1 else 0) else .err
    | [.str s] =>
      if f = "len" then .int s.length
      else if f = "ord" then (match s with | [c] => .int c.toNat | _ => .err)
      else .err
    | _ => .err

/-- Python on the code of vfp2py_convert_visitor.py:656-960 -/
def call : Val → List Val → Val
  | .obj f, vs => callObj f vs
  | .meth s m, vs => callMeth s m vs
  | _, _ => .err

/-- Python on the code of vfp2py_convert_visitor.py:656-960 -/
def attr : Val → String → Val
  | .obj o, s => .obj (o ++ "." ++ s)
  | .str v, s => .meth v s
  | _, _ => .err

/-- Python on the code of vfp2py_convert_visitor.py:656-960 -/
def builtins : List String := ["int", "chr", "ord", "len", "os", "abs", "max", "min"]

/-- Names: constants, built-in functions, otherwise variables of the program.
Python on the code of vfp2py_convert_visitor.py:972-987, 1183-1189 -/
def name (env : String → Val) (s : String) : Val :=
  if s = "True" then .bool true
  else if s = "False" then .bool false
  else if s = "None" then .none
  else if s ∈ builtins then .obj s
  else env s

/-- Python on the code of vfp2py_convert_visitor.py:656-960 -/
def indexVal : Val → Val → Val
  | .str s, .int i => (match Py.index s i with | some c => .str [c] | none => .err)
  | _, _ => .err

/-- The values of a program state `env`. Python on the code of vfp2py_convert_visitor.py:587-1255 -/
def py (env : String → Val) : Alg Val where
  name := name env
  int := .int
  str := .str
  ofBool := .bool
  truth := truth
  raises := raises
  neg := fun v => match v with | .int n => .int (-n) | _ => .err
  inv := fun v => match v with | .int n => .int (-n - 1) | _ => .err
  bin := bin
  cmp := cmp
  attr := attr
  call := call
  index := indexVal
  sliceFrom := fun v a => match v, a with | .str s, .int i => .str (Py.slice s (some i) none) | _, _ => .err
  sliceTo := fun v b => match v, b with | .str s, .int j => .str (Py.slice s none (some j)) | _, _ => .err
  slice := fun v a b => match v, a, b with | .str s, .int i, .int j => .str (Py.slice s (some i) (some j)) | _, _, _ => .err

end PyVal
