import Verif.Spec.FoxExpr
/-!
# Parsing of expressions

The rule `expr` of the generated parser (VisualFoxpro9Parser.py 12629-12890, from
VisualFoxpro9.g4 333-347): a first operand, then operators as long as they bind at
least as tightly as the level the rule was called with.

Tokens are those of the lexer, with a string, a logical constant and `.NULL.` as
one token each. The name of a function that is followed by its arguments is a token
of its own (`fn`, `addbs`), which stands for the lookup of the function by its name.
Not modelled: dates, CAST, subscripts, member access, references, omitted arguments
and error recovery; a text that is no expression gives no result.
-/
namespace Precedence
open FoxExpr

/-- Tokens of an expression (VisualFoxpro9Lexer.g4, VisualFoxpro9.g4 333-380). -/
inductive Tok
  | name (s : String)
  | int (n : Nat)
  | str (s : List Char)
  | bool (b : Bool)
  | null
  | fn (f : Fn)
  | addbs
  | lp
  | rp
  | comma
  | plus
  | minus
  | star
  | slash
  | percent
  | caret
  | cmp (o : FCmp)
  | and
  | or
  | not
deriving DecidableEq

/-- The alternatives of the loop, VisualFoxpro9Parser.py:12754-12876 -/
inductive Op
  | bin (o : AOp)
  | cmp (o : FCmp)
  | and
  | or

/-- The numbers in `precpred`, VisualFoxpro9Parser.py:12759, 12786, 12805, 12818,
12837, 12856, 12869 -/
def Op.prec : Op → Nat
  | .bin .pow => 10
  | .bin .mul => 9
  | .bin .div => 9
  | .bin .mod => 8
  | .bin .add => 7
  | .bin .sub => 7
  | .cmp _ => 6
  | .and => 5
  | .or => 4

/-- The argument of `expr` for the right operand: one more than `prec`
(VisualFoxpro9Parser.py:12779, 12798, 12811, 12830, 12849, 12862, 12875). -/
def Op.right : Op → Nat
  | .bin .pow => 11
  | .bin .mul => 10
  | .bin .div => 10
  | .bin .mod => 9
  | .bin .add => 8
  | .bin .sub => 8
  | .cmp _ => 7
  | .and => 6
  | .or => 5

/-- The context object of the alternative with its two operands,
VisualFoxpro9Parser.py:12755-12876 -/
def Op.node : Op → Ex → Ex → Ex
  | .bin o => .bin o
  | .cmp o => .cmp o
  | .and => .and
  | .or => .or

/-- The operator in front and the tokens behind it (the choice of the alternative by
`adaptivePredict`, VisualFoxpro9Parser.py:12754); two asterisks are one operator. -/
def front : List Tok → Option (Op × List Tok)
  | .star :: .star :: r => some (.bin .pow, r)
  | .caret :: r => some (.bin .pow, r)
  | .star :: r => some (.bin .mul, r)
  | .slash :: r => some (.bin .div, r)
  | .percent :: r => some (.bin .mod, r)
  | .plus :: r => some (.bin .add, r)
  | .minus :: r => some (.bin .sub, r)
  | .cmp o :: r => some (.cmp o, r)
  | .and :: r => some (.and, r)
  | .or :: r => some (.or, r)
  | _ => none

mutual
/-- `expr(_p)`, VisualFoxpro9Parser.py:12629-12890; the first argument bounds the
depth of the recursion. -/
def expr : Nat → Nat → List Tok → Option (Ex × List Tok)
  | 0, _, _ => none
  | f + 1, p, ts => (start f ts).bind fun x => more f p x.1 x.2
/-- The first operand, VisualFoxpro9Parser.py:12641-12740 -/
def start : Nat → List Tok → Option (Ex × List Tok)
  | 0, _ => none
  | f + 1, ts =>
    match ts with
    | .lp :: r => (expr f 0 r).bind fun x =>
      match x.2 with
      | .rp :: r' => some (.sub x.1, r')
      | _ => none
    | .plus :: r => (expr f 12 r).map fun x => (.plus x.1, x.2)
    | .minus :: r => (expr f 12 r).map fun x => (.minus x.1, x.2)
    | .not :: r => (expr f 11 r).map fun x => (.not x.1, x.2)
    | .name s :: r => some (.name s, r)
    | .int n :: r => some (.int n, r)
    | .str s :: r => some (.str s, r)
    | .bool b :: r => some (.bool b, r)
    | .null :: r => some (.null, r)
    | .addbs :: .lp :: r => (expr f 0 r).bind fun x =>
      match x.2 with
      | .rp :: r' => some (.addbs x.1, r')
      | _ => none
    | .fn g :: .lp :: r => (args f r).map fun x => (.call g x.1, x.2)
    | _ => none
/-- The loop over operators behind the operand `l`, VisualFoxpro9Parser.py:12746-12881 -/
def more : Nat → Nat → Ex → List Tok → Option (Ex × List Tok)
  | 0, _, _, _ => none
  | f + 1, p, l, ts =>
    match front ts with
    | some (o, r) =>
      if p ≤ o.prec then (expr f o.right r).bind fun x => more f p (o.node l x.1) x.2
      else some (l, ts)
    | none => some (l, ts)
/-- The arguments of a call up to the closing parenthesis (rules `trailer` and `args`,
VisualFoxpro9.g4:320-323, 369-370). -/
def args : Nat → List Tok → Option (List Ex × List Tok)
  | 0, _ => none
  | f + 1, ts =>
    match ts with
    | .rp :: r => some ([], r)
    | ts => argList f ts
/-- At least one argument (rules `args` and `argsItem`, VisualFoxpro9.g4:316-323). -/
def argList : Nat → List Tok → Option (List Ex × List Tok)
  | 0, _ => none
  | f + 1, ts => (expr f 0 ts).bind fun x =>
    match x.2 with
    | .rp :: r => some ([x.1], r)
    | .comma :: r => (argList f r).map fun y => (x.1 :: y.1, y.2)
    | _ => none
end

/-- The parser reads the tokens as the expression `e`
(`VisualFoxpro9Parser.expr`, VisualFoxpro9Parser.py:12629-12890). -/
def Parses (ts : List Tok) (e : Ex) : Prop := ∃ f, expr f 0 ts = some (e, [])

end Precedence
