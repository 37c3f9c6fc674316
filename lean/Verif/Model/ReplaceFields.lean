import Verif.Model.Database
/-!
# REPLACE with several fields

`visitReplace` and `getQueryConditions`, vfp2py_convert_visitor.py:1598-1609, 1687-1702, on the tokens of the
statement as the rule `replace` takes them apart (VisualFoxpro9.g4:197, 239-244, 374-409):
`REPLACE (queryCondition | specialExpr WITH expr)*`.

The rule has no comma between fields.  A comma is an element of a `pathname` (VisualFoxpro9.g4:401), and so it
becomes the first character of the name of the next field.  Simplifications: the value of a field and each
clause are one token; field names are one token, with the name of a table before a period if there is one;
an expression takes as many tokens as it can, the choice of the parser between equally long derivations.
-/
namespace Model.ReplaceFields
open Model.Database

/-- A clause, VisualFoxpro9.g4:239-244. -/
inductive Clause where
  | scope (s : Scope)
  | for_ (c : Nat → Rec → Bool)
  | while_ (c : Nat → Rec → Bool)
  | nooptimize

/-- The tokens after REPLACE, VisualFoxpro9.g4:197. -/
inductive Tok where
  | name (n : Str)
  | comma
  | with_
  | value (v : Rec → Int)
  | clause (c : Clause)

/-- The parse tree of the statement: the children of the rule in their kinds, VisualFoxpro9.g4:197. -/
structure Ctx where
  /-- `ctx.specialExpr()`, each with its text. -/
  names : List Str
  /-- `ctx.expr()` -/
  values : List (Rec → Int)
  /-- `ctx.queryCondition()` -/
  conditions : List Clause

/-- One more field, VisualFoxpro9.g4:197. -/
def Ctx.addField (c : Ctx) (n : Str) (v : Rec → Int) : Ctx := { c with names := n :: c.names, values := v :: c.values }

/-- `pathname`: the elements up to WITH, their texts joined (`getText`). VisualFoxpro9.g4:374-404 -/
def pathname : List Tok → Str × List Tok
  | .name n :: ts => (n ++ (pathname ts).1, (pathname ts).2)
  | .comma :: ts => (',' :: (pathname ts).1, (pathname ts).2)
  | ts => ([], ts)

/-- The tokens that `pathname` leaves are not more than it got, VisualFoxpro9.g4:374-404. -/
theorem pathname_le (ts : List Tok) : (pathname ts).2.length ≤ ts.length := by
  fun_induction pathname ts <;> simp_all <;> omega

/-- The rule `replace`, VisualFoxpro9.g4:197; `none` is a syntax error. -/
def parse (ts : List Tok) : Option Ctx :=
  match ts with
  | [] => some ⟨[], [], []⟩
  | .clause c :: rest => (parse rest).map fun x => { x with conditions := c :: x.conditions }
  | t :: ts' =>
    match hp : pathname (t :: ts') with
    | ([], _) => none
    | (n :: ns, .with_ :: .value v :: rest) =>
      have : rest.length < (t :: ts').length := by
        have := pathname_le (t :: ts')
        rw [hp] at this
        simp at this ⊢
        omega
      (parse rest).map fun x => x.addField (n :: ns) v
    | _ => none
termination_by ts.length

/-- `getQueryConditions`, vfp2py_convert_visitor.py:1687-1702: two scopes are an exception (`none`); of two other
clauses of one kind the last one counts. -/
def conditions (cs : List Clause) : Option (Query Rec) :=
  if 1 < (cs.filter fun c => match c with | .scope _ => true | _ => false).length then none
  else some (cs.foldl (fun q c => match c with
    | .scope s => { q with scope := some s }
    | .for_ c => { q with forC := some c }
    | .while_ c => { q with whileC := some c }
    | .nooptimize => q) ⟨none, none, none⟩)

/-- `field.lower().rsplit('.', 1)`: the table, if any, and the field. vfp2py_convert_visitor.py:1603-1606 -/
def split (n : Str) : Sel × Str :=
  let field := ((lower n).reverse.takeWhile (fun c => !decide (c = '.'))).reverse
  match (lower n).take ((lower n).length - field.length) with
  | [] => (.none, field)
  | t => (.str t.dropLast, field)

/-- `visitReplace` and the run of the generated call, vfp2py_convert_visitor.py:1598-1609: the first name and
the first value. `none`: the file is not converted, or nothing is to be replaced. -/
def runReplace (db : DB Rec) (ts : List Tok) : Option (DB Rec × Option Err) :=
  match parse ts with
  | none => none
  | some ctx =>
    match ctx.names, ctx.values, conditions ctx.conditions with
    | n :: _, v :: _, some q => some (replaceStmt db (split n).1 (split n).2 v q)
    | _, _, _ => none

end Model.ReplaceFields
