import Verif.Py.Basic
/-!
# Model of the statement blocks of the generated code

`vfp2py_convert_visitor.py:189-225` (visitLine, visitLines), `427-454`
(IF, DO CASE), `462-519` (FOR, DO WHILE, WITH, TRY) and `vfp2py.py:123-132`
(add_indents).

What a single command or expression is converted to is input (`S`: a simple
Python statement, `C`: an expression, `V`: a variable of FOR or `CATCH TO`).  The text of
a line is not kept, only which line it is.  SCAN loops are modelled elsewhere (C25); class and function definitions are not modelled here.
-/
namespace Blocks

/-- A condition as it appears in a generated header line. vfp2py_convert_visitor.py:431, 445, 448, 450, 477, 514 -/
inductive PCond (C : Type)
  | expr (c : C)
  /-- `True` (`vfp2py_convert_visitor.py:445`). -/
  | tt
  /-- `not (c)` (`vfp2py_convert_visitor.py:515`). -/
  | notE (c : C)

/-- A bound in `range(..)`: `int(e)` with an integer constant added to it
(`vfp2py_convert_visitor.py:467-469`). -/
structure PInt (C : Type) where
  expr : C
  plus : Int

/-- What a generated `for` line iterates over. vfp2py_convert_visitor.py:462-471 -/
inductive PIter (C : Type)
  | each (c : C)
  | range (start stop : PInt C) (step : Option (PInt C))

/-- A line of generated code. vfp2py_convert_visitor.py:427-519 -/
inductive PLine (S C V : Type)
  | simple (s : S)
  | pass
  | comment
  | blank
  | ifL (c : PCond C)
  | elifL (c : PCond C)
  | elseL
  | whileL (c : PCond C)
  | forL (v : V) (it : PIter C)
  | tryL
  | exceptL
  | finallyL
  /-- `S.v = vfpfunc.Exception.from_pyexception(err)`. -/
  | bindErr (v : V)
  | raise

/-- The nested lists of lines that the visitors return. vfp2py_convert_visitor.py:189-225 -/
inductive Item (S C V : Type)
  | line (l : PLine S C V)
  | block (is : List (Item S C V))

/-- A statement of the source (`VisualFoxpro9.g4:34-145`).
* `simple out`: a command whose visitor returned the lines `out`;
* `noise ls`: a comment, an empty line, or a statement that could not be
  converted and is kept as `#FIX ME` comments (`vfp2py_convert_visitor.py:198-201`);
  `ls` tells for each line whether it is empty. -/
inductive Stmt (S C V : Type)
  | simple (out : List S)
  | noise (ls : List Bool)
  | ifS (c : C) (body : List (Stmt S C V)) (els : Option (List (Stmt S C V)))
  | caseS (comments : List (List Bool)) (cases : List (C × List (Stmt S C V))) (otherwise : Option (List (Stmt S C V)))
  | whileS (c : C) (body : List (Stmt S C V))
  | forS (v : V) (start stop : C) (step : Option C) (body : List (Stmt S C V))
  | eachS (v : V) (c : C) (body : List (Stmt S C V))
  | withS (body : List (Stmt S C V))
  | tryS (body : List (Stmt S C V)) (catch_ : Option (Option V × Option C × List (Stmt S C V)))
      (fin : Option (List (Stmt S C V)))

variable {S C V : Type}

/-- The comment or empty line a noise line becomes. vfp2py_convert_visitor.py:204-217 -/
def noiseLine (empty : Bool) : Item S C V := .line (if empty then .blank else .comment)

/-- `badline` (`vfp2py_convert_visitor.py:221-222`): empty or starting with
`#`; a nested list is bad when it is empty. -/
def badline : Item S C V → Bool
  | .line .comment => true
  | .line .blank => true
  | .line _ => false
  | .block is => is.isEmpty

/-- The end of `visitLines` (`vfp2py_convert_visitor.py:223-225`). -/
def addPass (is : List (Item S C V)) : List (Item S C V) :=
  if is.isEmpty || is.all badline then is ++ [.line .pass] else is

/-- `visitForStart` (`vfp2py_convert_visitor.py:466-470`). -/
def forRange (start stop : C) (step : Option C) : PIter C :=
  .range ⟨start, 0⟩ ⟨stop, 1⟩ (step.map (fun c => ⟨c, 0⟩))

mutual
/-- `visitLine` (`vfp2py_convert_visitor.py:189-202`) with the visitors of the
statements: `visitIfStmt` 427-437, `visitCaseStmt` 439-454, `visitForStmt`
462-474, `visitWhileStmt` 476-480, `visitWithStmt` 482-486, `visitTryStmt` 497-519. -/
def visitLine : Stmt S C V → List (Item S C V)
  | .simple out => out.map (fun s => .line (.simple s))
  | .noise ls => ls.map noiseLine
  | .ifS c body els => .line (.ifL (.expr c)) :: .block (addPass (visitAll body)) :: visitElse els
  | .caseS comments cases otherwise =>
    comments.map (fun ls => .block (ls.map noiseLine)) ++ (visitCases cases ++ visitElse otherwise)
  | .whileS c body => [.line (.whileL (.expr c)), .block (addPass (visitAll body))]
  | .forS v start stop step body =>
    [.line (.forL v (forRange start stop step)), .block (addPass (visitAll body))]
  | .eachS v c body => [.line (.forL v (.each c)), .block (addPass (visitAll body))]
  | .withS body => addPass (visitAll body)
  | .tryS body catch_ fin =>
    if catch_.isNone then addPass (visitAll body) ++ visitOpt fin
    else
      [.line .tryL, .block (addPass (visitAll body)), .line .exceptL] ++ visitCatch catch_ ++
        (if fin.isNone then [] else [.line .finallyL, .block (visitOpt fin)])
/-- The `CATCH` blocks (`vfp2py_convert_visitor.py:505-515`): they are separate
lists at the same level. -/
def visitCatch : Option (Option V × Option C × List (Stmt S C V)) → List (Item S C V)
  | none => []
  | some (to, when_, lines) =>
    (match to with
      | none => []
      | some v => [.block [.line (.bindErr v)]]) ++
    (match when_ with
      | none => []
      | some w => [.block [.line (.ifL (.notE w)), .block [.line .raise]]]) ++
    [.block (addPass (visitAll lines))]
/-- `[CodeStr('else:'), ..]` when there is an else part (`434-436`, `452-453`). -/
def visitElse : Option (List (Stmt S C V)) → List (Item S C V)
  | none => []
  | some ls => [.line .elseL, .block (addPass (visitAll ls))]
/-- `self.visit(ctx.finallyLines) or []` (`499`). -/
def visitOpt : Option (List (Stmt S C V)) → List (Item S C V)
  | none => []
  | some ls => addPass (visitAll ls)
/-- The `if`/`elif` lines of DO CASE (`444-450`). -/
def visitCases : List (C × List (Stmt S C V)) → List (Item S C V)
  | [] => [.line (.ifL .tt), .block [.line .pass]]
  | (c, ls) :: rest => .line (.ifL (.expr c)) :: .block (addPass (visitAll ls)) :: visitElifs rest
/-- vfp2py_convert_visitor.py:449-450 -/
def visitElifs : List (C × List (Stmt S C V)) → List (Item S C V)
  | [] => []
  | (c, ls) :: rest => .line (.elifL (.expr c)) :: .block (addPass (visitAll ls)) :: visitElifs rest
/-- `sum((self.visit(line) for line in ctx.line()), [])` (`220`). -/
def visitAll : List (Stmt S C V) → List (Item S C V)
  | [] => []
  | s :: ss => visitLine s ++ visitAll ss
end

/-- `visitLines` (`vfp2py_convert_visitor.py:219-225`); inside the definitions
above it is written out as `addPass (visitAll ..)`. -/
def visitLines (ls : List (Stmt S C V)) : List (Item S C V) := addPass (visitAll ls)

mutual
/-- `add_indents` (`vfp2py.py:123-132`): the lines with their indentation depth;
an empty item gives an empty line. -/
def addIndents (n : Nat) : List (Item S C V) → List (Nat × PLine S C V)
  | [] => []
  | i :: is => indentItem n i ++ addIndents n is
/-- vfp2py.py:123-132 -/
def indentItem (n : Nat) : Item S C V → List (Nat × PLine S C V)
  | .line .blank => [(0, .blank)]
  | .line l => [(n, l)]
  | .block is => addIndents (n + 1) is
end

/-- The body of a procedure: `visit(ctx.lines())` indented below its `def` line.
vfp2py_convert_visitor.py:403 and vfp2py.py:123-132 -/
def generate (prog : List (Stmt S C V)) : List (Nat × PLine S C V) := addIndents 0 (visitLines prog)

end Blocks
