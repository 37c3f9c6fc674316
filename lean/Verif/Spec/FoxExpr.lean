import Verif.Spec.PyExpr
/-!
# FoxPro expressions

The tree of a FoxPro expression as the grammar reads it, the value it denotes over
an algebra of Python values, and which trees need parentheses that the converter
does not write.
-/
namespace FoxExpr
open PyExpr (Alg)

inductive AOp
  | add | sub | mul | div | mod | pow
deriving DecidableEq

inductive FCmp
  | eq | exact | ne | gt | ge | lt | le | within
deriving DecidableEq

/-- Bit functions of two numbers. -/
inductive BitFn
  | and | or | xor | lshift | rshift | set | clear | test
deriving DecidableEq

/-- Functions that are converted to Python code in place. -/
inductive Fn
  /-- a function that is called under the name `s` -/
  | other (s : String)
  /-- a function of a string that is a method of Python strings (UPPER, PADL, ..) -/
  | meth (m : String)
  /-- a test of the first character of a string (ISALPHA, ..) -/
  | first (m : String)
  | occurs | att | rat | atc
  | left | right | substr
  | replicate | space | chr | asc
  | iif | between | nvl | evl | sign | mod | empty | isnull
  | bit (b : BitFn) | bitnot
  | int | forceext
deriving DecidableEq

inductive Ex
  | name (s : String)
  | int (n : Nat)
  | str (s : List Char)
  | bool (b : Bool)
  | null
  /-- an expression in parentheses -/
  | sub (e : Ex)
  | plus (e : Ex)
  | minus (e : Ex)
  | not (e : Ex)
  | bin (o : AOp) (l r : Ex)
  | cmp (o : FCmp) (l r : Ex)
  | and (l r : Ex)
  | or (l r : Ex)
  | addbs (e : Ex)
  | call (f : Fn) (args : List Ex)

/-! ## The value of an expression -/

def AOp.py : AOp → PyExpr.BinOp
  | .add => .add
  | .sub => .sub
  | .mul => .mul
  | .div => .div
  | .mod => .mod
  | .pow => .pow

def FCmp.py : FCmp → PyExpr.CmpOp
  | .eq => .eq
  | .exact => .eq
  | .ne => .ne
  | .gt => .gt
  | .ge => .ge
  | .lt => .lt
  | .le => .le
  | .within => .isIn

section
variable {V : Type} (A : Alg V)

/-- The number a numeric argument is used as. -/
def number (v : V) : V := A.call (A.name "int") [v]
/-- Method call. -/
def method (v : V) (m : String) (vs : List V) : V := A.call (A.attr v m) vs
/-- `os.path.join` of the components. -/
def join (vs : List V) : V := A.call (A.attr (A.attr (A.name "os") "path") "join") vs
def splitext (v : V) : V := A.call (A.attr (A.attr (A.name "os") "path") "splitext") [v]
def notNull (v : V) : V := A.cmp .isNot v (A.name "None")

/-- What a bit function does to numbers. -/
def bitVal : BitFn → V → V → V
  | .and, a, b => A.bin .band a b
  | .or, a, b => A.bin .bor a b
  | .xor, a, b => A.bin .bxor a b
  | .lshift, a, b => A.bin .shl a b
  | .rshift, a, b => A.bin .shr a b
  | .set, a, b => A.bin .bor a (A.bin .shl (A.int 1) b)
  | .clear, a, b => A.bin .band a (A.bin .bxor (A.bin .shl (A.int 1) b) (A.int 4294967295))
  | .test, a, b => A.cmp .gt (A.bin .band a (A.bin .shl (A.int 1) b)) (A.int 0)

/-- What a function does to the values of its arguments. -/
def fnVal : Fn → List V → V
  | .other s, vs => A.call (A.name s) vs
  | .meth m, v :: vs => method A v m vs
  | .first m, [v] => method A (A.sliceTo v (A.int 1)) m []
  | .occurs, [a, s] => method A s "count" [a]
  | .att, [a, s] => A.bin .add (method A s "find" [a]) (A.int 1)
  | .rat, [a, s] => A.bin .add (method A s "rfind" [a]) (A.int 1)
  | .atc, [a, s] => A.bin .add (method A (method A s "lower" []) "find" [method A a "lower" []]) (A.int 1)
  | .left, [s, n] => A.sliceTo s (number A n)
  | .right, [s, n] => A.sliceFrom s (A.neg (number A n))
  | .substr, [s, i] => A.sliceFrom s (A.bin .sub (number A i) (A.int 1))
  | .substr, [s, i, n] =>
    A.slice s (A.bin .sub (number A i) (A.int 1)) (A.bin .add (number A n) (A.bin .sub (number A i) (A.int 1)))
  | .replicate, [s, n] => A.bin .mul s (number A n)
  | .space, [n] => A.bin .mul (number A n) (A.str [' '])
  | .chr, [n] => A.call (A.name "chr") [number A n]
  | .asc, [s] => A.call (A.name "ord") [A.index s (A.int 0)]
  | .iif, [c, a, b] => A.choose c a b
  | .between, [x, a, b] => A.choose (A.cmp .le a x) (A.cmp .le x b) (A.cmp .le a x)
  | .nvl, [x, y] => A.choose (notNull A x) x y
  | .evl, [x, y] => A.choose x x y
  | .sign, [x] =>
    A.choose (A.cmp .gt x (A.int 0)) (A.int 1) (A.choose (A.cmp .lt x (A.int 0)) (A.int (-1)) (A.int 0))
  | .mod, [a, b] => A.bin .mod a b
  | .empty, [x] => A.choose (notNull A x) (A.notOf x) (A.ofBool false)
  | .isnull, [x] => A.cmp .eq x (A.name "None")
  | .bit f, [a, b] => bitVal A f (number A a) (number A b)
  | .bitnot, [a] => A.inv (number A a)
  | .int, [a] => number A a
  | .forceext, [f, x] => A.bin .add (A.bin .add (A.index (splitext A f) (A.int 0)) (A.str ['.'])) x
  | _, _ => A.name "?"

/-- The logical value. -/
def logical (v : V) : V := A.choose v (A.ofBool true) (A.ofBool false)

mutual
/-- The value of an expression: every operation applied to the values of exactly
the operands that the source groups with it. -/
def fox : Ex → V
  | .name s => A.name s
  | .int n => A.int n
  | .str s => A.str s
  | .bool b => A.ofBool b
  | .null => A.name "None"
  | .sub e => fox e
  | .plus e => fox e
  | .minus e => A.neg (fox e)
  | .not e => A.notOf (fox e)
  | .bin o l r => A.bin o.py (fox l) (fox r)
  | .cmp o l r => A.cmp o.py (fox l) (fox r)
  | .and l r => A.choose (fox l) (logical A (fox r)) (A.ofBool false)
  | .or l r => A.choose (fox l) (A.ofBool true) (logical A (fox r))
  | .addbs e => join A [fox e, A.str []]
  | .call f args => fnVal A f (foxs args)
def foxs : List Ex → List V
  | [] => []
  | e :: es => fox e :: foxs es
end

/-- Facts about Python values that constant folding relies on. -/
structure Laws : Prop where
  truthBool : ∀ b, A.truth (A.ofBool b) = b
  raisesBool : ∀ b, A.raises (A.ofBool b) = false
  raisesStr : ∀ s, A.raises (A.str s) = false
  nameTrue : A.name "True" = A.ofBool true
  nameFalse : A.name "False" = A.ofBool false
  strNotBool : ∀ s b, A.str s ≠ A.ofBool b
  negInt : ∀ n, A.neg (A.int n) = A.int (-n)
  addInt : ∀ a b, A.bin .add (A.int a) (A.int b) = A.int (a + b)
  subInt : ∀ a b, A.bin .sub (A.int a) (A.int b) = A.int (a - b)
  addStr : ∀ a b, A.bin .add (A.str a) (A.str b) = A.str (a ++ b)
  mulSpace : ∀ n, A.bin .mul (A.int n) (A.str [' ']) = A.str (List.replicate n.toNat ' ')
  numberInt : ∀ n, number A (A.int n) = A.int n
  numberBool : ∀ b, number A (A.ofBool b) = A.int (if b then 1 else 0)
  chrInt : ∀ n : Nat, n.isValidChar → A.call (A.name "chr") [A.int n] = A.str [Char.ofNat n]
  slice0 : ∀ s j, A.slice s (A.int 0) j = A.sliceTo s j
  joinMore : ∀ x y z zs, join A (x :: y :: z :: zs) = join A (join A [x, y] :: z :: zs)

/-- Logical value. -/
def IsLogical (v : V) : Prop := ∃ b, v = A.ofBool b
/-- Logical value, or an exception. -/
def MayHold (v : V) : Prop := IsLogical A v ∨ A.raises v = true
/-- Not a text. -/
def NoText (v : V) : Prop := ∀ s, v ≠ A.str s
/-- Usable as a number. -/
def IsNumber (v : V) : Prop := ∃ n, number A v = A.int n
/-- Joining `y` behind a directory is appending it to the directory with its separator. -/
def Relative (y : V) : Prop := ∀ x, join A [x, y] = A.bin .add (join A [x, A.str []]) y

mutual
/-- Operands have the type that their operation needs, or are exceptions; the right operand of AND and OR needs to be logical only if the
left one does not decide. -/
def Typed : Ex → Prop
  | .sub e => Typed e
  | .plus e => Typed e
  | .minus e => Typed e
  | .not e => Typed e ∧ MayHold A (fox A e)
  | .bin o l r => Typed l ∧ Typed r ∧ (o = .add → (∃ x, l = .addbs x) → Relative A (fox A r))
  | .cmp _ l r => Typed l ∧ Typed r
  | .and l r => Typed l ∧ Typed r ∧ MayHold A (fox A l) ∧ NoText A (fox A r) ∧ (fox A l = A.ofBool true → MayHold A (fox A r))
  | .or l r => Typed l ∧ Typed r ∧ MayHold A (fox A l) ∧ NoText A (fox A r) ∧ (fox A l = A.ofBool false → MayHold A (fox A r))
  | .addbs e => Typed e
  | .call f args => Typeds args ∧ (f = .substr → ∀ s i n, foxs A args = [s, i, n] →
      IsNumber A i ∧ IsNumber A n ∧ (number A n = A.int 1 →
        A.index s (A.bin .sub (number A i) (A.int 1)) = fnVal A .substr [s, i, n]))
  | _ => True
def Typeds : List Ex → Prop
  | [] => True
  | e :: es => Typed e ∧ Typeds es
end
end

/-! ## Where parentheses would be needed -/

/-- How tightly the Python operator for `o` binds. -/
def AOp.level (o : AOp) : Nat := PyExpr.level o.py

def isSub : Ex → Bool
  | .sub _ => true
  | _ => false
def isSign : Ex → Bool
  | .plus _ => true
  | .minus _ => true
  | _ => false
def isPow : Ex → Bool
  | .bin .pow _ _ => true
  | _ => false
def isAdd : Ex → Bool
  | .bin .add _ _ => true
  | _ => false
/-- AND, OR or NOT, possibly in parentheses. -/
def isLogic : Ex → Bool
  | .not _ => true
  | .and _ _ => true
  | .or _ _ => true
  | .sub e => isLogic e
  | _ => false

/-- How tightly the code for a call of the function holds together. -/
def Fn.strength : Fn → Nat
  | .att => 9
  | .rat => 9
  | .atc => 9
  | .replicate => 10
  | .space => 10
  | .sign => 0
  | .isnull => 4
  | .bitnot => 11
  | .int => 11
  | .forceext => 9
  | _ => 13

/-- How tightly the code for an expression holds together: the level of its
outermost operator; parentheses of the source do not count. -/
def strength : Ex → Nat
  | .sub e => strength e
  | .plus e => strength e
  | .minus _ => 11
  | .not _ => 3
  | .bin o _ _ => o.level
  | .cmp _ _ _ => 4
  | .and _ _ => 2
  | .or _ _ => 1
  | .call f _ => f.strength
  | _ => 13

/-- How tightly each argument has to hold together; arguments beyond the list may
be anything. -/
def Fn.needs : Fn → List Nat
  | .meth _ => [13]
  | .first _ => [13]
  | .occurs => [0, 13]
  | .att => [0, 13]
  | .rat => [0, 13]
  | .atc => [13, 13]
  | .left => [13]
  | .right => [13]
  | .substr => [13]
  | .replicate => [10]
  | .asc => [13]
  | .iif => [1, 1]
  | .between => [5, 5, 5]
  | .nvl => [5]
  | .evl => [1, 1]
  | .sign => [5]
  | .mod => [10, 11]
  | .empty => [5]
  | .isnull => [5]
  | .forceext => [0, 10]
  | _ => []

/-- Numbers of arguments. -/
def Fn.arity : Fn → Nat → Bool
  | .other _, _ => true
  | .meth _, n => n != 0
  | .first _, n => n == 1
  | .substr, n => n == 2 || n == 3
  | .space, n => n == 1
  | .chr, n => n == 1
  | .asc, n => n == 1
  | .iif, n => n == 3
  | .between, n => n == 3
  | .sign, n => n == 1
  | .empty, n => n == 1
  | .isnull, n => n == 1
  | .bitnot, n => n == 1
  | .int, n => n == 1
  | _, n => n == 2

def fits : List Nat → List Ex → Bool
  | k :: ks, e :: es => decide (k ≤ strength e) && fits ks es
  | _, _ => true

/-- An operand of AND, OR and NOT. -/
def fitsLogic (e : Ex) : Bool := isLogic e || decide (3 ≤ strength e)

/-- Left operand of an arithmetic operator: in parentheses, or binding tightly enough. -/
def fitsLeft (o : AOp) (l : Ex) : Bool :=
  match o with
  | .pow => isSub l || isPow l || strength l == 13
  | o => isSub l || decide (o.level ≤ strength l)

def fitsRight (o : AOp) (r : Ex) : Bool := isSub r || decide (PyExpr.rightLevel o.py ≤ strength r)

mutual
/-- No operand needs parentheses that are not written: those of the source are
kept around operands of arithmetic operators, and operands of AND, OR and NOT get
them where needed; every other operand has to bind tightly enough. A `+` has no
logical operation as left operand, and ADDBS in front of a `+` has no sum as
argument. -/
def Plain : Ex → Bool
  | .sub e => Plain e
  | .plus e => Plain e
  | .minus e => Plain e && !isSign e && decide (11 ≤ strength e)
  | .not e => Plain e && fitsLogic e
  | .bin o l r => Plain l && Plain r && fitsLeft o l && fitsRight o r && (o != .add || (!isLogic l && plainPath l))
  | .cmp _ l r => Plain l && Plain r && decide (5 ≤ strength l) && decide (5 ≤ strength r)
  | .and l r => Plain l && Plain r && fitsLogic l && fitsLogic r
  | .or l r => Plain l && Plain r && fitsLogic l && fitsLogic r
  | .addbs e => Plain e
  | .call f args => Plains args && f.arity args.length && fits f.needs args
  | _ => true
/-- The left operand of a `+` is no ADDBS() of a sum that is not itself of the form ADDBS() + name. -/
def plainPath : Ex → Bool
  | .addbs (.bin .add (.addbs x) _) => plainPath (.addbs x)
  | .addbs (.bin .add _ _) => false
  | _ => true
def Plains : List Ex → Bool
  | [] => true
  | e :: es => Plain e && Plains es
end

/-- The grammar's levels: a binary operator takes operands of its own level or
tighter on the left and tighter on the right; signs and NOT take the shortest
operand. -/
def gLevel : Ex → Nat
  | .or _ _ => 0
  | .and _ _ => 1
  | .cmp _ _ _ => 2
  | .bin .add _ _ => 3
  | .bin .sub _ _ => 3
  | .bin .mod _ _ => 4
  | .bin .mul _ _ => 5
  | .bin .div _ _ => 5
  | .bin .pow _ _ => 6
  | _ => 7

mutual
/-- Trees that the grammar can produce. -/
def Parsed : Ex → Bool
  | .sub e => Parsed e
  | .plus e => Parsed e && gLevel e == 7
  | .minus e => Parsed e && gLevel e == 7
  | .not e => Parsed e && gLevel e == 7
  | .bin o l r => Parsed l && Parsed r && decide (gLevel (.bin o l r) ≤ gLevel l) && decide (gLevel (.bin o l r) < gLevel r)
  | .cmp _ l r => Parsed l && Parsed r && decide (2 ≤ gLevel l) && decide (2 < gLevel r)
  | .and l r => Parsed l && Parsed r && decide (1 ≤ gLevel l) && decide (1 < gLevel r)
  | .or l r => Parsed l && Parsed r && decide (0 < gLevel r)
  | .addbs e => Parsed e
  | .call _ args => Parseds args
  | _ => true
def Parseds : List Ex → Bool
  | [] => true
  | e :: es => Parsed e && Parseds es
end

/-- Names and numbers joined by `+ - * / ^` and parentheses. -/
def Arith : Ex → Bool
  | .name _ => true
  | .int _ => true
  | .sub e => Arith e
  | .bin o l r => o != .mod && Arith l && Arith r
  | _ => false

/-- An operand of a comparison: any expression that needs no parentheses there. -/
def Operand {V : Type} (A : Alg V) (e : Ex) : Prop := Plain e = true ∧ Typed A e ∧ 5 ≤ strength e

def isNot : Ex → Bool
  | .not _ => true
  | _ => false
/-- The operand behind all NOTs. -/
def core : Ex → Ex
  | .not e => core e
  | e => e
/-- The number of NOTs in front is odd. -/
def odd : Ex → Bool
  | .not e => !odd e
  | _ => false

/-- A condition: logical names and constants, logical functions and comparisons,
joined by AND, OR, NOT and parentheses in any way. `NOT a = b` is a comparison whose
left operand has a NOT; it is restricted to arithmetic operands. -/
def Cond {V : Type} (A : Alg V) : Ex → Prop
  | .name s => IsLogical A (A.name s)
  | .bool _ => True
  | .call f as => Plain (.call f as) = true ∧ Typed A (.call f as) ∧ 3 ≤ f.strength ∧ IsLogical A (fox A (.call f as))
  | .cmp o l r => Operand A (core l) ∧ (isNot l = true → Arith (core l) = true) ∧ Operand A r ∧
      IsLogical A (A.cmp o.py (fox A (core l)) (fox A r))
  | .sub e => Cond A e
  | .not e => Cond A e
  | .and l r => Cond A l ∧ Cond A r
  | .or l r => Cond A l ∧ Cond A r
  | _ => False

/-- Truth of a condition; NOT applies to the whole comparison behind it. -/
def holds {V : Type} (A : Alg V) : Ex → Bool
  | .sub e => holds A e
  | .not e => !holds A e
  | .and l r => holds A l && holds A r
  | .or l r => holds A l || holds A r
  | .cmp o l r => odd l != A.truth (A.cmp o.py (fox A (core l)) (fox A r))
  | e => A.truth (fox A e)

/-- Signs in front of an operand, outermost first; `true` is `-`. -/
def signed : List Bool → Ex → Ex
  | [], e => e
  | true :: l, e => .minus (signed l e)
  | false :: l, e => .plus (signed l e)

/-- A string constant, CHR() or SPACE() of a constant, or a sum of such. -/
inductive StrConst : Ex → List Char → Prop
  | str (s : List Char) : StrConst (.str s) s
  | chr (n : Nat) : n.isValidChar → StrConst (.call .chr [.int n]) [Char.ofNat n]
  | space (n : Nat) : n ≤ 8 → StrConst (.call .space [.int n]) (List.replicate n ' ')
  | add {l r s t} : StrConst l s → StrConst r t → StrConst (.bin .add l r) (s ++ t)

/-- `ADDBS(.. ADDBS(ADDBS(d) + x1) + x2 ..)`, the last component given first. -/
def dirPath (d : Ex) : List Ex → Ex
  | [] => d
  | x :: xs => .bin .add (.addbs (dirPath d xs)) x

end FoxExpr
