import Verif.Spec.FoxExpr
/-!
# Conversion of expressions

The tree clean-up pass and the expression visitors of the converter. Generated
text is a list of Python tokens: the templates of the code put spaces or
punctuation between any two tokens that would otherwise run together, except a
number in front of a method call (`UPPER(5)`), which no well-typed program holds.

Not modelled: floating point, date and binary literals, CAST, subscripts, member
access, object references, and the lookup of a function by its name.
-/
namespace Expr
open PyExpr (Tok)
open FoxExpr

/-! ## Tree clean-up -/

/-- `TreeCleanVisitor.visitSubExpr` (vfp2py.py 160-166) after its child has been
visited: doubled parentheses become single ones. -/
def mkSub : Ex → Ex
  | .sub e => .sub e
  | e => .sub e

/-- `TreeCleanVisitor.visitPower` (vfp2py.py 168-181), left operand: a power gets
parentheses. -/
def powLeft : Ex → Ex
  | .bin .pow l r => .sub (.bin .pow l r)
  | e => e

/-- `TreeCleanVisitor.visitPower` (vfp2py.py 171-174), right operand: a power loses
its parentheses. -/
def powRight : Ex → Ex
  | .sub (.bin .pow l r) => .bin .pow l r
  | e => e

/-- `TreeCleanVisitor.visitUnaryNegation` (vfp2py.py 183-187) for a `-`: if the
operand is itself signed, both signs become `+`. -/
def mkMinus : Ex → Ex
  | .plus e => .plus (.plus e)
  | .minus e => .plus (.plus e)
  | e => .minus e

mutual
/-- `TreeCleanVisitor` (vfp2py.py 140-187): children first. -/
def clean : Ex → Ex
  | .sub e => mkSub (clean e)
  | .plus e => .plus (clean e)
  | .minus e => mkMinus (clean e)
  | .not e => .not (clean e)
  | .bin .pow l r => .bin .pow (powLeft (clean l)) (powRight (clean r))
  | .bin o l r => .bin o (clean l) (clean r)
  | .cmp o l r => .cmp o (clean l) (clean r)
  | .and l r => .and (clean l) (clean r)
  | .or l r => .or (clean l) (clean r)
  | .addbs e => .addbs (clean e)
  | .call f args => .call f (cleans args)
  | e => e
/-- vfp2py.py:140-187 -/
def cleans : List Ex → List Ex
  | [] => []
  | e :: es => clean e :: cleans es
end

/-! ## Converted values -/

/-- What the visitors return: Python constants, code (`CodeStr`,
vfp2py_convert_visitor.py 31-51) or an `OperatorExpr` (75-104). -/
inductive Py
  | int (n : Int)
  | str (s : List Char)
  | bool (b : Bool)
  | none
  | code (ts : List Tok)
  | or (l r : Py)
  | and (l r : Py)
  | not (e : Py)

/-- `isinstance(.., OperatorExpr)`. vfp2py_convert_visitor.py:75-104 -/
def Py.isOp : Py → Bool
  | .or _ _ => true
  | .and _ _ => true
  | .not _ => true
  | _ => false

/-- `precedence` of `OrExpr`, `AndExpr` and `NotExpr` (vfp2py_convert_visitor.py
94-104); a value that is no `OperatorExpr` is never put into parentheses, written
as a precedence above all others. -/
def Py.prec : Py → Nat
  | .or _ _ => 0
  | .and _ _ => 1
  | .not _ => 2
  | _ => 3

/-- vfp2py_convert_visitor.py:1183-1189 -/
def boolTok (b : Bool) : Tok := .name (if b then "True" else "False")

/-- `repr` of an integer. vfp2py_convert_visitor.py:1159-1169 -/
def intToks (n : Int) : List Tok := if n < 0 then [.bin .sub, .int n.natAbs] else [.int n.natAbs]

mutual
/-- `repr(value)` for what the visitors return. vfp2py_convert_visitor.py:31-33, 87-92 -/
def pyRepr : Py → List Tok
  | .int n => intToks n
  | .str s => [.str s]
  | .bool b => [boolTok b]
  | .none => [.name "None"]
  | .code ts => ts
  | .or l r => wrap 0 l ++ .or :: wrap 0 r
  | .and l r => wrap 1 l ++ .and :: wrap 1 r
  | .not e => .not :: wrap 2 e
/-- `OperatorExpr.wrap_arg` and the `format` of its result (vfp2py_convert_visitor.py
82-92): parentheses around an `OperatorExpr` of lower precedence, no quotes around
string constants. -/
def wrap : Nat → Py → List Tok
  | _, .int n => intToks n
  | _, .str s => [.raw s]
  | _, .bool b => [boolTok b]
  | _, .none => [.name "None"]
  | _, .code ts => ts
  | p, .or l r => if 0 < p then .lp :: ((wrap 0 l ++ .or :: wrap 0 r) ++ [.rp]) else wrap 0 l ++ .or :: wrap 0 r
  | p, .and l r => if 1 < p then .lp :: ((wrap 1 l ++ .and :: wrap 1 r) ++ [.rp]) else wrap 1 l ++ .and :: wrap 1 r
  | _, .not e => .not :: wrap 2 e
end

/-- Arguments separated by commas. vfp2py_convert_visitor.py:112 -/
def commas : List (List Tok) → List Tok
  | [] => []
  | [t] => t
  | t :: ts => t ++ .comma :: commas ts

/-- `make_func_code` (vfp2py_convert_visitor.py 106-112) without keyword arguments. -/
def funcCode (f : List Tok) (args : List Py) : List Tok := f ++ .lp :: (commas (args.map pyRepr) ++ [.rp])

/-- `{}.m(args)`. vfp2py_convert_visitor.py:106-112 -/
def methCode (f : List Tok) (m : String) (args : List Py) : List Tok := funcCode (f ++ [.dot, .name m]) args

/-- The redirected `int` (vfp2py_convert_visitor.py 54-66): of a number that number,
of code that spells an integer that integer, otherwise a call. A string constant
that spells a number is not taken into account. -/
def pyInt : Py → Py
  | .int n => .int n
  | .bool b => .int (if b then 1 else 0)
  | .code [.int n] => .int n
  | .code [.bin .sub, .int n] => .int (-n)
  | v => .code (funcCode [.name "int"] [v])

/-- The redirected `chr` (vfp2py_convert_visitor.py 54-66); surrogates, which Python
accepts, are left out. -/
def pyChr : Py → Py
  | .int (.ofNat n) => if n.isValidChar then .str [Char.ofNat n] else .code (funcCode [.name "chr"] [.int n])
  | v => .code (funcCode [.name "chr"] [v])

/-- `v -= 1` on what `int` returned (`CodeStr.__sub__`, vfp2py_convert_visitor.py 41). -/
def pyPred : Py → Py
  | .int n => .int (n - 1)
  | v => .code (pyRepr v ++ [.bin .sub, .int 1])

/-- `v + w` on numbers and code (`CodeStr.__add__`, `__radd__`,
vfp2py_convert_visitor.py 35-39). -/
def pyAdd : Py → Py → Py
  | .int a, .int b => .int (a + b)
  | v, w => .code (pyRepr v ++ .bin .add :: pyRepr w)

/-- `v * ' '` (`space`, vfp2py_convert_visitor.py 660-664). -/
def pySpace : Py → Py
  | .int n => if 8 < n then .code (intToks n ++ [.bin .mul, .str [' ']]) else .str (List.replicate n.toNat ' ')
  | v => .code (pyRepr v ++ [.bin .mul, .str [' ']])

/-- vfp2py_convert_visitor.py:1183-1189 -/
def tNone : Tok := .name "None"
/-- The names `os.path.f` of vfp2py_convert_visitor.py:943-959 -/
def tOsPath (f : String) : List Tok := [.name "os", .dot, .name "path", .dot, .name f]

/-- The table of templates for bit functions (vfp2py_convert_visitor.py 855-865). -/
def bitCode : BitFn → List Tok → List Tok → List Tok
  | .and, a, b => .lp :: (a ++ .bin .band :: b ++ [.rp])
  | .or, a, b => .lp :: (a ++ .bin .bor :: b ++ [.rp])
  | .xor, a, b => .lp :: (a ++ .bin .bxor :: b ++ [.rp])
  | .lshift, a, b => .lp :: (a ++ .bin .shl :: b ++ [.rp])
  | .rshift, a, b => .lp :: (a ++ .bin .shr :: b ++ [.rp])
  | .set, a, b => .lp :: (a ++ .bin .bor :: .lp :: (.int 1 :: .bin .shl :: b ++ [.rp]) ++ [.rp])
  | .clear, a, b =>
    .lp :: (a ++ .bin .band :: .lp :: (.lp :: (.int 1 :: .bin .shl :: b ++ [.rp]) ++
      .bin .bxor :: [.int 4294967295, .rp]) ++ [.rp])
  | .test, a, b =>
    .lp :: (.lp :: (a ++ .bin .band :: .lp :: (.int 1 :: .bin .shl :: b ++ [.rp]) ++ [.rp]) ++
      .cmp .gt :: [.int 0, .rp])

/-- `v == 1` on what `int` returned. vfp2py_convert_visitor.py:656-720 -/
def isOne : Py → Bool
  | .int n => n == 1
  | _ => false

/-- `substr` with three arguments (vfp2py_convert_visitor.py 820-829); `i` and `n`
are the numbers after `int`. -/
def substrCode (s : List Tok) (i n : Py) : List Tok :=
  if isOne n then s ++ .lb :: (pyRepr (pyPred i) ++ [.rb])
  else if isOne i then s ++ .lb :: .colon :: (pyRepr n ++ [.rb])
  else s ++ .lb :: (pyRepr (pyPred i) ++ .colon :: (pyRepr (pyAdd n (pyPred i)) ++ [.rb]))

/-- `func_call` (vfp2py_convert_visitor.py 631-970) for the functions of `Fn`. A
wrong number of arguments ends in an exception or in a different function; both are
written as text that is no Python expression. -/
def func : Fn → List Py → Py
  | .other s, vs => .code (funcCode [.name s] vs)
  -- 778-789
  | .meth m, v :: vs => .code (methCode (pyRepr v) m vs)
  -- 875-876
  | .first m, [v] => .code (methCode (pyRepr v ++ [.lb, .colon, .int 1, .rb]) m [])
  -- 707
  | .occurs, [a, s] => .code (methCode (pyRepr s) "count" [a])
  -- 713-718
  | .att, [a, s] => .code (methCode (pyRepr s) "find" [a] ++ [.bin .add, .int 1])
  | .rat, [a, s] => .code (methCode (pyRepr s) "rfind" [a] ++ [.bin .add, .int 1])
  -- 709-712
  | .atc, [a, s] =>
    .code (methCode (methCode (pyRepr s) "lower" []) "find" [.code (methCode (pyRepr a) "lower" [])] ++ [.bin .add, .int 1])
  -- 817-819
  | .left, [s, n] => .code (pyRepr s ++ .lb :: .colon :: (pyRepr (pyInt n) ++ [.rb]))
  -- 814-816
  | .right, [s, n] => .code (pyRepr s ++ .lb :: (.bin .sub :: pyRepr (pyInt n) ++ [.colon, .rb]))
  -- 820-829
  | .substr, [s, i] => .code (pyRepr s ++ .lb :: (pyRepr (pyPred (pyInt i)) ++ [.colon, .rb]))
  | .substr, [s, i, n] => .code (substrCode (pyRepr s) (pyInt i) (pyInt n))
  -- 719-721
  | .replicate, [s, n] => .code (pyRepr s ++ .bin .mul :: pyRepr (pyInt n))
  -- 660-664
  | .space, [n] => pySpace (pyInt n)
  -- 656-657
  | .chr, [n] => pyChr (pyInt n)
  -- 665-666
  | .asc, [s] => .code (funcCode [.name "ord"] [.code (pyRepr s ++ [.lb, .int 0, .rb])])
  -- 768-769
  | .iif, [c, a, b] => .code (.lp :: (pyRepr a ++ .ifT :: (pyRepr c ++ .elseT :: pyRepr b) ++ [.rp]))
  -- 770-771
  | .between, [x, a, b] => .code (.lp :: ((pyRepr a ++ .cmp .le :: pyRepr x) ++ .cmp .le :: pyRepr b ++ [.rp]))
  -- 772-773
  | .nvl, [x, y] => .code (.lp :: (pyRepr x ++ .ifT :: ((pyRepr x ++ [.cmp .isNot, tNone]) ++ .elseT :: pyRepr y) ++ [.rp]))
  -- 774-775
  | .evl, [x, y] => .code (.lp :: (pyRepr x ++ .or :: pyRepr y ++ [.rp]))
  -- 776-777
  | .sign, [x] =>
    .code (.int 1 :: .ifT :: ((pyRepr x ++ [.cmp .gt, .int 0]) ++ .elseT ::
      (.lp :: (.bin .sub :: .int 1 :: .ifT :: ((pyRepr x ++ [.cmp .lt, .int 0]) ++ .elseT :: [.int 0]) ++ [.rp]))))
  -- 869-870
  | .mod, [a, b] => .code (.lp :: (pyRepr a ++ .bin .mod :: pyRepr b ++ [.rp]))
  -- 705-706
  | .empty, [x] =>
    .code (.lp :: (.not :: pyRepr x ++ .ifT :: ((pyRepr x ++ [.cmp .isNot, tNone]) ++ .elseT :: [.name "False"]) ++ [.rp]))
  -- 873-874
  | .isnull, [x] => .code (pyRepr x ++ [.cmp .eq, tNone])
  -- 854-866
  | .bit f, [a, b] => .code (bitCode f (pyRepr (pyInt a)) (pyRepr (pyInt b)))
  | .bitnot, [a] => .code (.tilde :: pyRepr (pyInt a))
  -- 871-872
  | .int, [a] => pyInt a
  -- 955
  | .forceext, [f, x] =>
    .code (((funcCode (tOsPath "splitext") [f] ++ [.lb, .int 0, .rb]) ++ [.bin .add, .str ['.']]) ++ .bin .add :: pyRepr x)
  | _, _ => .code [.raw []]

/-- `addbs` (vfp2py_convert_visitor.py 956). -/
def addbsCode (v : Py) : Py := .code (funcCode (tOsPath "join") [v, .str []])

/-- `add_parens` (vfp2py_convert_visitor.py 1236-1240). -/
def parens (child : Ex) (v : Py) : Py := if isSub child then .code (.lp :: (pyRepr v ++ [.rp])) else v

/-- The end of `operationExpr` (vfp2py_convert_visitor.py 1250-1252): string
constants are joined, anything else becomes code. -/
def opCode : AOp → Py → Py → Py
  | .add, .str a, .str b => .str (a ++ b)
  | o, l, r => .code (pyRepr l ++ .bin o.py :: pyRepr r)

/-- The operand is a call of ADDBS. vfp2py_convert_visitor.py:1219-1225 -/
def isPath : Ex → Bool
  | .addbs _ => true
  | _ => false

mutual
/-- The expression visitors (vfp2py_convert_visitor.py 594-629, 1096-1118,
1171-1255) on a cleaned tree; `skip` is the flag `skip_extract`. Identifiers stand
for their converted form, which may be a dotted name. -/
def conv (skip : Bool) : Ex → Py
  | .name s => .code [.name s]
  | .int n => .int n
  | .str s => .str s
  | .bool b => .bool b
  | .null => .none
  | .sub e => conv skip e
  | .plus e => .code (pyRepr (conv skip e))
  | .minus e => .code (.bin .sub :: pyRepr (conv skip e))
  | .not e => .not (conv skip e)
  | .and l r => .and (conv skip l) (conv skip r)
  | .or l r => .or (conv skip l) (conv skip r)
  | .cmp o l r => .code (pyRepr (conv skip l) ++ .cmp o.py :: pyRepr (conv skip r))
  | .addbs e => addbsCode (conv skip e)
  | .call f args => func f (convs skip args)
  | .bin .add l r =>
    -- 1228-1235
    if !skip && (isPath l || (conv true l).isOp) then
      .code (funcCode (tOsPath "join") (pathArgs l (conv true l) ++ [conv true r]))
    else opCode .add (parens l (conv skip l)) (parens r (conv skip r))
  | .bin o l r => opCode o (parens l (conv skip l)) (parens r (conv skip r))
/-- `extract_args_from_addbs` (vfp2py_convert_visitor.py 1219-1225) on the left
operand of an addition, with the arguments converted while `skip_extract` is set; `d`
is the operand itself, converted. -/
def pathArgs : Ex → Py → List Py
  | .addbs (.bin .add l r), _ => pathArgs l (conv true l) ++ [conv true r]
  | .addbs x, _ => [conv true x]
  | _, d => [d]
/-- vfp2py_convert_visitor.py:587-592 -/
def convs (skip : Bool) : List Ex → List Py
  | [] => []
  | e :: es => conv skip e :: convs skip es
end

/-- The Python text of an expression. vfp2py.py:140-187 and vfp2py_convert_visitor.py:587-1255 -/
def text (e : Ex) : List Tok := pyRepr (conv false (clean e))

/-! ## Assignment -/

/-- A generated assignment statement. vfp2py_convert_visitor.py:565-585 -/
inductive Assign
  | plain (x : String) (ts : List Tok)
  | aug (x : String) (o : PyExpr.BinOp) (ts : List Tok)

/-- `visitAssign` (vfp2py_convert_visitor.py 565-585) for a single target that is a
plain name: code that begins with the target and one of `+ - * /` becomes an
augmented assignment of the rest. -/
def assign (x : String) (e : Ex) : Assign :=
  match conv false (clean e) with
  | .code (.name y :: .bin o :: rest) =>
    if x = y ∧ (o = .add ∨ o = .sub ∨ o = .mul ∨ o = .div) then .aug x o rest
    else .plain x (.name y :: .bin o :: rest)
  | v => .plain x (pyRepr v)

end Expr
