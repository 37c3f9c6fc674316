import Verif.Spec.Blocks
import Verif.Spec.FoxExpr
/-!
# Meaning of FoxPro programs

Programs of procedures with assignments, STORE, `?`, LOCAL, PRIVATE, PUBLIC, IF, DO CASE, DO WHILE, FOR, EXIT, LOOP,
RETURN, calls, ERROR, THROW and TRY, over numbers, texts and logical values.  Reading an undefined variable,
adding or subtracting a number and a text, and dividing by zero are errors like those of ERROR and THROW (`fails`).  A run
that does something whose meaning is not described here (other operands of wrong types, such errors in `?`, in the limits
of FOR and in IIF and the like, a second LOCAL or PRIVATE for the same variable, a body of FOR that changes the variable of the loop, use of this variable behind the loop,
a variable as argument of DO, which is passed by reference, use of the error object of CATCH, an error that is not
handled in its procedure, EXIT, LOOP or RETURN out of TRY) ends in a `fault`: nothing is claimed about it.
The description does not use the model of the converter or of its library.
-/
namespace ProgramSpec
open FoxExpr (Ex AOp FCmp Fn)
open Blocks (Stmt)
open BlocksSpec

inductive FVal
  | num (n : Int)
  | str (s : List Char)
  | bool (b : Bool)
deriving DecidableEq

/-- The contents of a variable; what FOR leaves in its variable and CATCH in that of the error is not specified, and
PRIVATE gives none. -/
inductive Cell
  | known (v : FVal)
  | unspecified
deriving DecidableEq

/-- Variables by their names. -/
abbrev Scope := String → Option Cell

def Scope.put (s : Scope) (x : String) (c : Cell) : Scope := fun y => if y = x then some c else s y

/-- The variables of a program, what it has printed, and the value of the last call. -/
structure FState where
  /-- The locals of the running procedure, of its caller and so on; the last are those of the command window. -/
  locals : List Scope
  /-- The private variables of the running procedure, of its caller and so on; the last are the public ones. -/
  levels : List Scope
  out : List (List FVal)
  result : Option FVal

/-- The variable that a name denotes: the local one, otherwise the innermost one. -/
def FState.read (f : FState) (x : String) : Option Cell :=
  match f.locals.head?.bind (fun s => s x) with
  | some c => some c
  | none => f.levels.findSome? fun s => s x

/-- Change the innermost variable of that name. -/
def change (x : String) (c : Cell) : List Scope → Option (List Scope)
  | [] => none
  | s :: ss => if (s x).isSome then some (s.put x c :: ss) else (change x c ss).map (s :: ·)

/-- Make or change a variable in the innermost level. -/
def create (x : String) (c : Cell) : List Scope → List Scope
  | [] => []
  | s :: ss => s.put x c :: ss

/-- Give the variable that the name denotes a value; there is a new private one if it denotes none. -/
def FState.store (f : FState) (x : String) (c : Cell) : FState :=
  if (f.locals.head?.bind (fun s => s x)).isSome then { f with locals := create x c f.locals }
  else
    match change x c f.levels with
    | some ls => { f with levels := ls }
    | none => { f with levels := create x c f.levels }

/-! ## Expressions -/

def arith : AOp → FVal → FVal → Option FVal
  | .add, .num a, .num b => some (.num (a + b))
  | .add, .str a, .str b => some (.str (a ++ b))
  | .sub, .num a, .num b => some (.num (a - b))
  | .mul, .num a, .num b => some (.num (a * b))
  | .mod, .num a, .num b => if b = 0 then none else some (.num (a - b * a.fdiv b))
  | _, _, _ => none

/-- The place of `a` in `t`, counted from `n`; 0 if it is not there. -/
def place (a : List Char) : Nat → List Char → Nat
  | _, [] => 0
  | n, c :: t => if a <+: c :: t then n else place a (n + 1) t

/-- The last place of `a` in `t`, counted from `n`; 0 if it is not there. -/
def lastPlace (a : List Char) : Nat → List Char → Nat
  | _, [] => 0
  | n, c :: t => if lastPlace a (n + 1) t ≠ 0 then lastPlace a (n + 1) t else if a <+: c :: t then n else 0

/-- Comparisons of numbers, `==` and `$` of texts, `=` of logical values. -/
def compare : FCmp → FVal → FVal → Option FVal
  | .eq, .num a, .num b => some (.bool (a == b))
  | .exact, .num a, .num b => some (.bool (a == b))
  | .ne, .num a, .num b => some (.bool (a != b))
  | .lt, .num a, .num b => some (.bool (decide (a < b)))
  | .le, .num a, .num b => some (.bool (decide (a ≤ b)))
  | .gt, .num a, .num b => some (.bool (decide (b < a)))
  | .ge, .num a, .num b => some (.bool (decide (b ≤ a)))
  | .exact, .str a, .str b => some (.bool (a == b))
  | .eq, .bool a, .bool b => some (.bool (a == b))
  | .exact, .bool a, .bool b => some (.bool (a == b))
  | .ne, .bool a, .bool b => some (.bool (a != b))
  | .within, .str a, .str b => if a = [] then none else some (.bool (place a 1 b != 0))
  | _, _, _ => none

/-- The largest of some numbers. -/
def largest : List FVal → Option Int
  | [.num a] => some a
  | .num a :: vs => (largest vs).map (fun m => max a m)
  | _ => none

/-- The smallest of some numbers. -/
def smallest : List FVal → Option Int
  | [.num a] => some a
  | .num a :: vs => (smallest vs).map (fun m => min a m)
  | _ => none

/-- LEN, UPPER, LOWER, LTRIM, RTRIM and ALLTRIM of texts of printable ASCII characters, PADR and PADL to at least the length of the text, PADC if as many characters are to be added on both sides, LEFT, RIGHT, SUBSTR, AT, ATC, RAT,
OCCURS of a character, ISALPHA, ISDIGIT, ISUPPER and ISLOWER of texts that are empty or begin with an ASCII character, REPLICATE, SPACE, CHR, ASC, IIF, BETWEEN,
MOD, SIGN, INT, ABS, MAX and MIN of numbers, BITAND, BITOR, BITXOR, BITTEST, BITRSHIFT, EMPTY and EVL (but not for texts of blanks), NVL and ISNULL. -/
def function : Fn → List FVal → Option FVal
  | .other s, [.str t] => if s = "len" then some (.num t.length) else none
  | .other s, [.num n] => if s = "abs" then some (.num n.natAbs) else none
  | .other s, v :: w :: vs =>
    if s = "max" then (largest (v :: w :: vs)).map .num
    else if s = "min" then (smallest (v :: w :: vs)).map .num
    else none
  | .meth m, [.str t] =>
    if m = "upper" then some (.str (t.map Char.toUpper))
    else if m = "lower" then some (.str (t.map Char.toLower))
    else if !t.all (fun c => 32 ≤ c.toNat && c.toNat < 127) then none
    else if m = "lstrip" then some (.str (t.dropWhile (· == ' ')))
    else if m = "rstrip" then some (.str (t.reverse.dropWhile (· == ' ')).reverse)
    else if m = "strip" then some (.str ((t.dropWhile (· == ' ')).reverse.dropWhile (· == ' ')).reverse)
    else none
  | .meth m, [.str t, .num n] =>
    if n < t.length then none
    else if m = "ljust" then some (.str (t ++ List.replicate (n.toNat - t.length) ' '))
    else if m = "rjust" then some (.str (List.replicate (n.toNat - t.length) ' ' ++ t))
    else if m = "center" ∧ (n.toNat - t.length) % 2 = 0 then
      some (.str (List.replicate ((n.toNat - t.length) / 2) ' ' ++ t ++ List.replicate ((n.toNat - t.length) / 2) ' '))
    else none
  | .meth m, [.str t, .num n, .str [c]] =>
    if n < t.length then none
    else if m = "ljust" then some (.str (t ++ List.replicate (n.toNat - t.length) c))
    else if m = "rjust" then some (.str (List.replicate (n.toNat - t.length) c ++ t))
    else if m = "center" ∧ (n.toNat - t.length) % 2 = 0 then
      some (.str (List.replicate ((n.toNat - t.length) / 2) c ++ t ++ List.replicate ((n.toNat - t.length) / 2) c))
    else none
  | .left, [.str t, .num n] => if n < 0 then none else some (.str (t.take n.toNat))
  | .right, [.str t, .num n] => if n ≤ 0 then none else some (.str (t.drop (t.length - n.toNat)))
  | .substr, [.str t, .num i] => if i ≤ 0 then none else some (.str (t.drop (i.toNat - 1)))
  | .substr, [.str t, .num i, .num n] =>
    if i ≤ 0 ∨ t.length < i ∨ n < 0 then none else some (.str ((t.drop (i.toNat - 1)).take n.toNat))
  | .att, [.str a, .str t] => if a = [] then none else some (.num (place a 1 t))
  | .rat, [.str a, .str t] => if a = [] then none else some (.num (lastPlace a 1 t))
  | .atc, [.str a, .str t] => if a = [] then none else some (.num (place (a.map Char.toLower) 1 (t.map Char.toLower)))
  | .occurs, [.str [c], .str t] => some (.num (t.filter (· == c)).length)
  | .first m, [.str []] => if m ∈ ["isalpha", "isdigit", "isupper", "islower"] then some (.bool false) else none
  | .first m, [.str (c :: _)] =>
    if 127 < c.toNat then none
    else if m = "isalpha" then some (.bool c.isAlpha)
    else if m = "isdigit" then some (.bool c.isDigit)
    else if m = "isupper" then some (.bool c.isUpper)
    else if m = "islower" then some (.bool c.isLower)
    else none
  | .replicate, [.str t, .num n] => if n < 0 then none else some (.str (List.replicate n.toNat t).flatten)
  | .space, [.num n] => if n < 0 then none else some (.str (List.replicate n.toNat ' '))
  | .chr, [.num n] => if n < 0 ∨ 127 < n then none else some (.str [Char.ofNat n.toNat])
  | .asc, [.str (c :: _)] => if 127 < c.toNat then none else some (.num c.toNat)
  | .iif, [.bool c, a, b] => some (if c then a else b)
  | .between, [.num n, .num a, .num b] => some (.bool (decide (a ≤ n ∧ n ≤ b)))
  | .mod, [.num a, .num b] => if b = 0 then none else some (.num (a - b * a.fdiv b))
  | .sign, [.num n] => some (.num (if 0 < n then 1 else if n < 0 then -1 else 0))
  | .empty, [.num n] => some (.bool (n == 0))
  | .empty, [.bool b] => some (.bool !b)
  | .empty, [.str t] => if t = [] then some (.bool true) else if t.all (fun c => c.toNat ≤ 32) then none else some (.bool false)
  | .evl, [.num n, b] => some (if n = 0 then b else .num n)
  | .evl, [.bool a, b] => some (if a then .bool a else b)
  | .evl, [.str t, b] => if t = [] then some b else if t.all (fun c => c.toNat ≤ 32) then none else some (.str t)
  | .nvl, [a, _] => some a
  | .isnull, [_] => some (.bool false)
  | .int, [.num n] => some (.num n)
  | .bit .test, [.num a, .num b] => if a < 0 ∨ b < 0 then none else some (.bool (a.toNat.testBit b.toNat))
  | .bit .rshift, [.num a, .num b] => if a < 0 ∨ b < 0 then none else some (.num (a.toNat / 2 ^ b.toNat : Nat))
  | .bit .and, [.num a, .num b] => if a < 0 ∨ b < 0 then none else some (.num (a.toNat &&& b.toNat : Nat))
  | .bit .or, [.num a, .num b] => if a < 0 ∨ b < 0 then none else some (.num (a.toNat ||| b.toNat : Nat))
  | .bit .xor, [.num a, .num b] => if a < 0 ∨ b < 0 then none else some (.num (a.toNat ^^^ b.toNat : Nat))
  | _, _ => none

def negate : FVal → Option FVal
  | .num n => some (.num (-n))
  | _ => none

def plus : FVal → Option FVal
  | .num n => some (.num n)
  | _ => none

def notVal : FVal → Option FVal
  | .bool b => some (.bool (!b))
  | _ => none

def andVal : FVal → FVal → Option FVal
  | .bool a, .bool b => some (.bool (a && b))
  | _, _ => none

def orVal : FVal → FVal → Option FVal
  | .bool a, .bool b => some (.bool (a || b))
  | _, _ => none

/-- The logical value `b`, which decides a conjunction or disjunction. -/
def decides (b : Bool) : Option FVal → Bool
  | some (.bool c) => c == b
  | _ => false

def isLogical (v : Option FVal) : Bool := decides true v || decides false v

/-- Operands that the operator does not take, and division by zero. -/
def wrong : AOp → FVal → FVal → Bool
  | .add, .num _, .str _ => true
  | .add, .str _, .num _ => true
  | .sub, .num _, .str _ => true
  | .sub, .str _, .num _ => true
  | .mod, .num _, .num b => b == 0
  | .div, .num _, .num b => b == 0
  | _, _, _ => false

/-- The same for the operands of an operator, if they have values. -/
def wrongs (o : AOp) : Option FVal → Option FVal → Bool
  | some a, some b => wrong o a b
  | _, _ => false

/-- Functions of which all arguments are needed. -/
def strict : Fn → Bool
  | .other s => s == "len" || s == "abs" || s == "max" || s == "min"
  | .meth _ => true
  | .left => true
  | .right => true
  | .att => true
  | .rat => true
  | .occurs => true
  | .int => true
  | .replicate => true
  | .space => true
  | .chr => true
  | .asc => true
  | .mod => true
  | _ => false

mutual
/-- The value of an expression, if it has one. AND and OR look at their right operand only if the left one does not decide. -/
def value (f : FState) : Ex → Option FVal
  | .name x =>
    match f.read x with
    | some (.known v) => some v
    | _ => none
  | .int n => some (.num n)
  | .str s => some (.str s)
  | .bool b => some (.bool b)
  | .sub e => value f e
  | .plus e => (value f e).bind plus
  | .minus e => (value f e).bind negate
  | .not e => (value f e).bind notVal
  | .bin o l r => (value f l).bind fun a => (value f r).bind fun b => arith o a b
  | .cmp o l r => (value f l).bind fun a => (value f r).bind fun b => compare o a b
  | .and l r =>
    if decides false (value f l) && fails f r then some (.bool false)
    else (value f l).bind fun a => (value f r).bind fun b => andVal a b
  | .or l r =>
    if decides true (value f l) && fails f r then some (.bool true)
    else (value f l).bind fun a => (value f r).bind fun b => orVal a b
  | .call g args => (values f args).bind (function g)
  | _ => none
def values (f : FState) : List Ex → Option (List FVal)
  | [] => some []
  | e :: es => (value f e).bind fun v => (values f es).map (v :: ·)
/-- The evaluation ends in an error: a variable that does not exist, or operands of wrong types, among operands
that otherwise have values. -/
def fails (f : FState) : Ex → Bool
  | .name x => (f.read x).isNone
  | .sub e => fails f e
  | .plus e => fails f e
  | .minus e => fails f e
  | .not e => fails f e
  | .and l r => (fails f l && (fails f r || isLogical (value f r))) || (decides true (value f l) && fails f r)
  | .or l r => (fails f l && (fails f r || isLogical (value f r))) || (decides false (value f l) && fails f r)
  | .bin o l r => o != .pow && ((value f l).isSome || fails f l) && ((value f r).isSome || fails f r) &&
      (fails f l || fails f r || wrongs o (value f l) (value f r))
  | .cmp _ l r => ((value f l).isSome || fails f l) && ((value f r).isSome || fails f r) && (fails f l || fails f r)
  | .call g args => strict g && settled f args && anyFails f args
  | _ => false
/-- Each has a value or ends in an error. -/
def settled (f : FState) : List Ex → Bool
  | [] => true
  | e :: es => ((value f e).isSome || fails f e) && settled f es
def anyFails (f : FState) : List Ex → Bool
  | [] => false
  | e :: es => fails f e || anyFails f es
end

/-! ## Statements -/

/-- Statements without parts. -/
inductive Simple
  /-- `x = e` -/
  | assign (x : String) (e : Ex)
  /-- `STORE e TO x, y, ..` -/
  | store (e : Ex) (x y : String) (xs : List String)
  /-- `? e, e, ..` -/
  | print (es : List Ex)
  | locals (xs : List String)
  | privates (xs : List String)
  | publics (xs : List String)
  /-- `RELEASE x, y, ..` -/
  | release (xs : List String)
  | exit
  | loop
  | ret (e : Option Ex)
  /-- `x = p(e, ..)`, or `p(e, ..)` alone -/
  | call (x : Option String) (p : String) (args : List Ex)
  /-- `DO p WITH e, ..` -/
  | doProc (p : String) (args : List Ex)
  /-- `ERROR e`, `THROW e` -/
  | throw (e : Ex)

/-- How a run is cut short: `fault` where nothing is claimed, `bound` when a bound on the depth of calls
or on the iterations of a loop in a called procedure is exceeded, `thrown` by ERROR, THROW and errors. -/
inductive Stop
  | fault
  | bound
  | thrown
deriving DecidableEq

abbrev Result := Res Stop FState

/-- What becomes of a statement with an expression that has no value. -/
def failure (b : Bool) : Stop := if b then .thrown else .fault

/-- Declare variables in a scope that does not have them; they are .F. -/
def declare : List String → Scope → Option Scope
  | [], s => some s
  | x :: xs, s => if (s x).isSome then none else declare xs (s.put x (.known (.bool false)))

/-- PRIVATE: variables of these names that callers have are hidden; the new ones have no value yet. -/
def hide : List String → Scope → Option Scope
  | [], s => some s
  | x :: xs, s => if (s x).isSome then none else hide xs (s.put x .unspecified)

/-- PUBLIC: new variables in the last level, for names that denote nothing. -/
def publics : List String → FState → Option FState
  | [], f => some f
  | x :: xs, f =>
    match f.read x, f.levels.getLast? with
    | none, some s => publics xs { f with levels := f.levels.dropLast ++ [s.put x (.known (.bool false))] }
    | _, _ => none

def Scope.without (s : Scope) (x : String) : Scope := fun y => if y = x then none else s y

/-- Remove the innermost variable of that name. -/
def remove (x : String) : List Scope → List Scope
  | [] => []
  | s :: ss => if (s x).isSome then s.without x :: ss else s :: remove x ss

/-- Remove the variable that the name denotes, if there is one. -/
def FState.drop (f : FState) (x : String) : FState :=
  if (f.locals.head?.bind (fun s => s x)).isSome then { f with locals := remove x f.locals }
  else { f with levels := remove x f.levels }

/-- RELEASE: the variables that the names denote are gone; names that denote nothing are passed over. Nothing is
claimed if a variable of the same name that was hidden comes to light. -/
def release : List String → FState → Option FState
  | [], f => some f
  | x :: xs, f => if ((f.drop x).read x).isSome then none else release xs (f.drop x)

def isName : Ex → Bool
  | .name _ => true
  | .sub e => isName e
  | _ => false

/-- What a called procedure does: its arguments and the state to the state after it. -/
abbrev Calls := String → List FVal → FState → Out Stop × FState

def callStmt (call : Calls) (x : Option String) (p : String) (args : List Ex) (f : FState) : Out Stop × FState :=
  match values f args with
  | none => (.err (failure (settled f args && anyFails f args)), f)
  | some vs =>
    match call p vs f with
    | (.normal, f1) =>
      match x, f1.result with
      | none, _ => (.normal, f1)
      | some x, some v => (.normal, f1.store x (.known v))
      | some _, none => (.err .fault, f1)
    | r => r

def FState.storeAll (f : FState) (v : FVal) : List String → FState
  | [] => f
  | x :: xs => (f.store x (.known v)).storeAll v xs

def simple (call : Calls) : Simple → FState → Out Stop × FState
  | .assign x e, f =>
    match value f e with
    | some v => (.normal, f.store x (.known v))
    | none => (.err (failure (fails f e)), f)
  | .store e x y xs, f =>
    match value f e with
    | some v => (.normal, f.storeAll v (x :: y :: xs))
    | none => (.err (failure (fails f e)), f)
  | .print es, f =>
    match values f es with
    | some vs => (.normal, { f with out := f.out ++ [vs] })
    | none => (.err .fault, f)
  | .locals xs, f =>
    match f.locals with
    | [] => (.err .fault, f)
    | s :: ss =>
      match declare xs s with
      | some s' => (.normal, { f with locals := s' :: ss })
      | none => (.err .fault, f)
  | .privates xs, f =>
    match f.levels with
    | [] => (.err .fault, f)
    | s :: ss =>
      match hide xs s with
      | some s' =>
        if xs.any (fun x => (f.locals.head?.bind fun l => l x).isSome) then (.err .fault, f)
        else (.normal, { f with levels := s' :: ss })
      | none => (.err .fault, f)
  | .publics xs, f =>
    match publics xs f with
    | some f1 => (.normal, f1)
    | none => (.err .fault, f)
  | .release xs, f =>
    match release xs f with
    | some f1 => (.normal, f1)
    | none => (.err .fault, f)
  | .exit, f => (.exit, f)
  | .loop, f => (.loop, f)
  | .ret none, f => (.ret, { f with result := none })
  | .ret (some e), f =>
    match value f e with
    | some v => (.ret, { f with result := some v })
    | none => (.err (failure (fails f e)), f)
  | .call x p args, f => callStmt call x p args f
  | .doProc p args, f => if args.any isName then (.err .fault, f) else callStmt call none p args f
  | .throw e, f =>
    match value f e with
    | some _ => (.err .thrown, f)
    | none => (.err (failure (fails f e)), f)

def simples (call : Calls) : List Simple → FState → Result
  | [], f => some (.normal, f)
  | x :: xs, f => andThen (some (simple call x f)) (simples call xs)

def cond (c : Ex) (f : FState) : Except Stop Bool × FState :=
  match value f c with
  | some (.bool b) => (.ok b, f)
  | some _ => (.error .fault, f)
  | none => (.error (failure (fails f c)), f)

/-- The condition behind CATCH .. WHEN. -/
def condWhen (c : Ex) (f : FState) : Except Stop Bool × FState :=
  match value f c with
  | some (.bool b) => (.ok b, f)
  | _ => (.error .fault, f)

def number (c : Ex) (f : FState) : Except Stop Int × FState :=
  match value f c with
  | some (.num n) => (.ok n, f)
  | _ => (.error .fault, f)

/-- The first value of a FOR loop; an error in it leaves the variable as it was. -/
def startNumber (c : Ex) (f : FState) : Except Stop Int × FState :=
  match value f c with
  | some (.num n) => (.ok n, f)
  | some _ => (.error .fault, f)
  | none => (.error (failure (fails f c)), f)

/-- The runs of the body of a FOR loop for the values `is` of the variable; nothing is claimed for a loop that has no
runs and whose variable does not exist. -/
def forLoop (body : FState → Result) (x : String) : List Int → FState → Result
  | [], f => if (f.read x).isNone then some (.err .fault, f) else some (.normal, f.store x .unspecified)
  | i :: is, f =>
    match body (f.store x (.known (.num i))) with
    | none => none
    | some (.normal, f2) => if f2.read x = some (.known (.num i)) then forLoop body x is f2 else some (.err .fault, f2)
    | some (.loop, f2) => if f2.read x = some (.known (.num i)) then forLoop body x is f2 else some (.err .fault, f2)
    | some (.exit, f2) => some (.normal, f2)
    | some (.ret, f2) => some (.ret, f2)
    | some (.err e, f2) => some (.err e, f2)

/-- FINALLY after the end `r` of TRY or CATCH; an error goes on behind it. -/
def finish (r : Result) (fin : FState → Result) : Result :=
  match r with
  | none => none
  | some (.normal, f) => fin f
  | some (.err .thrown, f) =>
    match fin f with
    | some (.normal, f1) => some (.err .thrown, f1)
    | r1 => r1
  | some (_, f) => some (.err .fault, f)

/-- CATCH after the end `r` of TRY. -/
def handle (r : Result) (handler : FState → Result) : Result :=
  match r with
  | some (.err .thrown, f) => handler f
  | r => r

mutual
/-- A statement, with at most `n` iterations per DO WHILE loop. -/
def exec (call : Calls) (n : Nat) : Stmt Simple Ex String → FState → Result
  | .simple ss, f => simples call ss f
  | .noise _, f => some (.normal, f)
  | .ifS c body els, f => branch (cond c f) (execs call n body) (execOpt call n els)
  | .caseS _ cases otherwise, f => execCases call n (execOpt call n otherwise) cases f
  | .whileS c body, f => repeatLoop (cond c) (execs call n body) n f
  | .forS x start stop step body, f =>
    BlocksSpec.value (startNumber start f) fun a f1 =>
      BlocksSpec.value (number stop f1) fun b f2 =>
        BlocksSpec.value (match step with
            | none => (.ok 1, f2)
            | some c => number c f2) fun k f3 =>
          forLoop (execs call n body) x (forValues a b k) f3
  | .tryS body catch_ fin, f => finish (handle (execs call n body f) (execCatch call n catch_)) (execOpt call n fin)
  | _, f => some (.err .fault, f)
/-- What CATCH does with an error: its variable is set, the condition behind WHEN decides. -/
def execCatch (call : Calls) (n : Nat) : Option (Option String × Option Ex × List (Stmt Simple Ex String)) → FState → Result
  | none, f => some (.err .thrown, f)
  | some (to, when_, ls), f =>
    let f1 := match to with
      | none => f
      | some x => f.store x .unspecified
    match when_ with
    | none => execs call n ls f1
    | some w => branch (condWhen w f1) (execs call n ls) (fun f2 => some (.err .thrown, f2))
def execCases (call : Calls) (n : Nat) (otherwise : FState → Result) :
    List (Ex × List (Stmt Simple Ex String)) → FState → Result
  | [], f => otherwise f
  | (c, ls) :: rest, f => branch (cond c f) (execs call n ls) (execCases call n otherwise rest)
def execOpt (call : Calls) (n : Nat) : Option (List (Stmt Simple Ex String)) → FState → Result
  | none, f => some (.normal, f)
  | some ls, f => execs call n ls f
def execs (call : Calls) (n : Nat) : List (Stmt Simple Ex String) → FState → Result
  | [], f => some (.normal, f)
  | x :: xs, f => andThen (exec call n x f) (execs call n xs)
end

/-! ## Procedures -/

/-- A procedure with LPARAMETERS, or with PARAMETERS if they are `priv`. -/
structure Proc where
  priv : Bool
  params : List String
  body : List (Stmt Simple Ex String)

/-- The variables that parameters are; those without an argument are .F. -/
def bindParams : List String → List FVal → Scope
  | [], _ => fun _ => none
  | p :: ps, vs => (bindParams ps vs.tail).put p (.known (vs.headD (.bool false)))

def enter (d : Proc) (vs : List FVal) (f : FState) : FState :=
  { locals := (if d.priv then fun _ => none else bindParams d.params vs) :: f.locals
    levels := (if d.priv then bindParams d.params vs else fun _ => none) :: f.levels
    out := f.out
    result := none }

def leave (result : Option FVal) (f : FState) : FState :=
  { locals := f.locals.tail
    levels := f.levels.tail
    out := f.out
    result := result }

/-- A call, for the meaning `call` of the calls in it. -/
def callProc (n : Nat) (call : Calls) (d : Proc) (vs : List FVal) (f : FState) : Out Stop × FState :=
  if d.params.length < vs.length then (.err .fault, f)
  else
    match execs call n d.body (enter d vs f) with
    | none => (.err .bound, f)
    | some (.normal, f1) => (.normal, leave none f1)
    | some (.ret, f1) => (.normal, leave f1.result f1)
    | some (.err .bound, f1) => (.err .bound, f1)
    | some (_, f1) => (.err .fault, f1)

/-- Calls of the procedures of a program, at most `k` deep. -/
def calls (procs : String → Option Proc) (n : Nat) : Nat → Calls
  | 0 => fun _ _ f => (.err .bound, f)
  | k + 1 => fun p vs f =>
    match procs p with
    | none => (.err .fault, f)
    | some d => callProc n (calls procs n k) d vs f

/-- The state in which a program starts. -/
def fresh : FState := { locals := [fun _ => none], levels := [fun _ => none], out := [], result := none }

end ProgramSpec
