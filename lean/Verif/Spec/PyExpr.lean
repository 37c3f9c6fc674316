import Verif.Py.Basic
/-!
# Python expressions

How Python reads a sequence of tokens as an expression (precedence climbing with
Python's table of operators) and what the expression denotes over an arbitrary
algebra of values.
-/
namespace PyExpr

inductive BinOp
  | add | sub | mul | div | mod | pow | band | bor | bxor | shl | shr
deriving DecidableEq

inductive CmpOp
  | lt | le | gt | ge | eq | ne | isIn | isNot
deriving DecidableEq

inductive Tok
  | name (s : String)
  | int (n : Nat)
  | str (s : List Char)
  | bin (o : BinOp)
  | cmp (o : CmpOp)
  | and
  | or
  | not
  | tilde
  | ifT
  | elseT
  | lp
  | rp
  | lb
  | rb
  | comma
  | colon
  | dot
  /-- text that is not a Python token sequence known here -/
  | raw (s : List Char)
deriving DecidableEq

inductive PyE
  | name (s : String)
  | int (n : Nat)
  | str (s : List Char)
  | paren (e : PyE)
  | neg (e : PyE)
  | inv (e : PyE)
  | bin (o : BinOp) (l r : PyE)
  | cmp (l : PyE) (o : CmpOp) (r : PyE)
  /-- a further comparison behind the comparison `l`: `a < b < c` -/
  | chain (l : PyE) (o : CmpOp) (r : PyE)
  | and (l r : PyE)
  | or (l r : PyE)
  | not (e : PyE)
  | ite (t c f : PyE)
  | attr (e : PyE) (s : String)
  | call (f : PyE) (args : List PyE)
  | index (e i : PyE)
  | sliceFrom (e a : PyE)
  | sliceTo (e b : PyE)
  | slice (e a b : PyE)

/-- Binding strength of binary operators. -/
def level : BinOp → Nat
  | .bor => 5
  | .bxor => 6
  | .band => 7
  | .shl => 8
  | .shr => 8
  | .add => 9
  | .sub => 9
  | .mul => 10
  | .div => 10
  | .mod => 10
  | .pow => 12

/-- Strength required of the right operand; `**` accepts a signed one and
associates to the right. -/
def rightLevel : BinOp → Nat
  | .pow => 11
  | o => level o + 1

def isCmp : PyE → Bool
  | .cmp _ _ _ => true
  | .chain _ _ _ => true
  | _ => false

/-! Levels: conditional 0, or 1, and 2, not 3, comparison 4, binary operators
above, sign 11, `**` 12, call, attribute, subscript and atoms 13. -/
mutual
/-- An expression whose operators have strength `m` or more. -/
def expr : Nat → Nat → List Tok → Option (PyE × List Tok)
  | 0, _, _ => none
  | f + 1, m, ts => (start f m ts).bind fun p => more f m p.1 p.2
/-- What an expression begins with. -/
def start : Nat → Nat → List Tok → Option (PyE × List Tok)
  | 0, _, _ => none
  | f + 1, m, ts =>
    match ts with
    | .name s :: r => some (.name s, r)
    | .int n :: r => some (.int n, r)
    | .str s :: r => some (.str s, r)
    | .bin .sub :: r => (expr f 11 r).map fun p => (.neg p.1, p.2)
    | .tilde :: r => (expr f 11 r).map fun p => (.inv p.1, p.2)
    | .not :: r => if m ≤ 3 then (expr f 3 r).map fun p => (.not p.1, p.2) else none
    | .lp :: r => (expr f 0 r).bind fun p =>
      match p.2 with
      | .rp :: r' => some (.paren p.1, r')
      | _ => none
    | _ => none
/-- What follows an expression `l`. -/
def more : Nat → Nat → PyE → List Tok → Option (PyE × List Tok)
  | 0, _, _, _ => none
  | f + 1, m, l, ts =>
    match ts with
    | .bin o :: r =>
      if m ≤ level o then (expr f (rightLevel o) r).bind fun p => more f m (.bin o l p.1) p.2
      else some (l, ts)
    | .cmp o :: r =>
      if m ≤ 4 then (expr f 5 r).bind fun p => more f m (if isCmp l then .chain l o p.1 else .cmp l o p.1) p.2
      else some (l, ts)
    | .and :: r => if m ≤ 2 then (expr f 3 r).bind fun p => more f m (.and l p.1) p.2 else some (l, ts)
    | .or :: r => if m ≤ 1 then (expr f 2 r).bind fun p => more f m (.or l p.1) p.2 else some (l, ts)
    | .ifT :: r =>
      if m = 0 then (expr f 1 r).bind fun p =>
        match p.2 with
        | .elseT :: r' => (expr f 0 r').bind fun q => more f m (.ite l p.1 q.1) q.2
        | _ => none
      else some (l, ts)
    | .dot :: r =>
      match r with
      | .name s :: r' => more f m (.attr l s) r'
      | _ => none
    | .lp :: r => (args f r).bind fun p => more f m (.call l p.1) p.2
    | .lb :: r => (subscript f l r).bind fun p => more f m p.1 p.2
    | _ => some (l, ts)
/-- Arguments up to the closing parenthesis. -/
def args : Nat → List Tok → Option (List PyE × List Tok)
  | 0, _ => none
  | f + 1, ts =>
    match ts with
    | .rp :: r => some ([], r)
    | ts => argList f ts
/-- The same, at least one argument. -/
def argList : Nat → List Tok → Option (List PyE × List Tok)
  | 0, _ => none
  | f + 1, ts => (expr f 0 ts).bind fun p =>
    match p.2 with
    | .rp :: r => some ([p.1], r)
    | .comma :: r => (argList f r).map fun q => (p.1 :: q.1, q.2)
    | _ => none
/-- Index or slice of `l` up to the closing bracket. -/
def subscript : Nat → PyE → List Tok → Option (PyE × List Tok)
  | 0, _, _ => none
  | f + 1, l, ts =>
    match ts with
    | .colon :: r => (expr f 0 r).bind fun p =>
      match p.2 with
      | .rb :: r' => some (.sliceTo l p.1, r')
      | _ => none
    | ts => (expr f 0 ts).bind fun p =>
      match p.2 with
      | .rb :: r' => some (.index l p.1, r')
      | .colon :: r' => sliceEnd f l p.1 r'
      | _ => none
/-- The end of a slice that begins at `a`. -/
def sliceEnd : Nat → PyE → PyE → List Tok → Option (PyE × List Tok)
  | 0, _, _, _ => none
  | f + 1, l, a, ts =>
    match ts with
    | .rb :: r => some (.sliceFrom l a, r)
    | ts => (expr f 0 ts).bind fun q =>
      match q.2 with
      | .rb :: r => some (.slice l a q.1, r)
      | _ => none
end

/-- Python reads the tokens as the expression `p`. -/
def Reads (ts : List Tok) (p : PyE) : Prop := ∃ f, expr f 0 ts = some (p, [])

/-! ## Meaning -/

/-- Values and what operators do to them. -/
structure Alg (V : Type) where
  name : String → V
  int : Int → V
  str : List Char → V
  ofBool : Bool → V
  truth : V → Bool
  /-- It stands for an exception. -/
  raises : V → Bool
  neg : V → V
  inv : V → V
  bin : BinOp → V → V → V
  cmp : CmpOp → V → V → V
  attr : V → String → V
  call : V → List V → V
  index : V → V → V
  sliceFrom : V → V → V
  sliceTo : V → V → V
  slice : V → V → V → V

variable {V : Type}

/-- `t` or `f`, depending on whether `c` is true; an exception in `c` stays one. -/
def Alg.choose (A : Alg V) (c t f : V) : V := if A.raises c then c else if A.truth c then t else f
def Alg.notOf (A : Alg V) (v : V) : V := if A.raises v then v else A.ofBool (!A.truth v)

mutual
/-- Value of an expression. -/
def eval (A : Alg V) : PyE → V
  | .name s => A.name s
  | .int n => A.int n
  | .str s => A.str s
  | .paren e => eval A e
  | .neg e => A.neg (eval A e)
  | .inv e => A.inv (eval A e)
  | .bin o l r => A.bin o (eval A l) (eval A r)
  | .cmp l o r => A.cmp o (eval A l) (eval A r)
  | .chain l o r => A.choose (eval A l) (A.cmp o (lastOf A l) (eval A r)) (eval A l)
  | .and l r => A.choose (eval A l) (eval A r) (eval A l)
  | .or l r => A.choose (eval A l) (eval A l) (eval A r)
  | .not e => A.notOf (eval A e)
  | .ite t c f => A.choose (eval A c) (eval A t) (eval A f)
  | .attr e s => A.attr (eval A e) s
  | .call f args => A.call (eval A f) (evals A args)
  | .index e i => A.index (eval A e) (eval A i)
  | .sliceFrom e a => A.sliceFrom (eval A e) (eval A a)
  | .sliceTo e b => A.sliceTo (eval A e) (eval A b)
  | .slice e a b => A.slice (eval A e) (eval A a) (eval A b)
/-- Value of the last operand of a comparison. -/
def lastOf (A : Alg V) : PyE → V
  | .cmp _ _ r => eval A r
  | .chain _ _ r => eval A r
  | _ => A.ofBool false
def evals (A : Alg V) : List PyE → List V
  | [] => []
  | e :: es => eval A e :: evals A es
end

end PyExpr
