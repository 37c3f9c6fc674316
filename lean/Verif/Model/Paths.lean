import Verif.Model.ModuleNames
/-!
# References to members of objects, and WITH

The text that a reference like `form.grid.columns(2).width` becomes: `createIdAttr` (convert visitor 989-1006),
`convert_trailer_args` (1008-1012), `visitIdAttr` (1024-1030), `visitAtomExpr` (1096-1119) without `::` and constants,
`visitAssign` (565-576) for its targets, and `visitWithStmt` (482-486).

Simplifications: the code of arguments is given; a name with arguments and nothing behind them is a call, whose
code is a parameter (C94), and so is `callmethod`; of the lines of WITH only references are kept.
-/
namespace Model.Paths
open Model.ModuleNames (Str identifier scopeVal islower Access)

/-- A part of a reference behind its first name: `.name` or `(args)`. vfp2py_convert_visitor.py:1008-1022 -/
inductive Step
  | attr (name : Str)
  | args (as : List Str)
  deriving DecidableEq

/-- A reference: `a.b(x).c` or, with a leading dot, `.a.b`. vfp2py_convert_visitor.py:1024-1030 -/
structure Ref where
  dotted : Bool
  first : Str
  steps : List Step

/-- The functions of the visitor that are not described here. vfp2py_convert_visitor.py:631-970 -/
structure Other where
  funcCall : Str → List Str → Str
  callMethod : Str → Str → Str → Str

/-- The text of an access. vfp2py_convert_visitor.py:972-987 -/
def accessText : Access → Str
  | .attr s n => s ++ '.' :: n
  | .index s c => s ++ '[' :: c ++ [']']
  | .self => "self".toList
  | .parentform => "self.parentform".toList
  | .bare n => n

/-- `', '.join(args)`. vfp2py_convert_visitor.py:112 -/
def joined (as : List Str) : Str := (", ".toList).intercalate as

/-- `visitIdentTrailer` (1019-1022), `visitFuncCallTrailer` (1014-1017): the names are those of `visitIdentifier`. -/
def visitStep : Step → Step
  | .attr n => .attr (identifier n)
  | .args as => .args as

/-- `convert_trailer_args`, 1008-1012. -/
def stepText : Step → Str
  | .attr n => '.' :: n
  | .args as => '(' :: joined as ++ [')']

/-- vfp2py_convert_visitor.py:989-1006 -/
def stepsText (steps : List Step) : Str := steps.flatMap stepText

/-- The first name, 1004-1005. -/
def rootText (id : Str) : Str := if islower id then accessText (scopeVal id) else id

/-- `createIdAttr`, 989-1006, for the trailer in reversed order. -/
def createRev (F : Other) (id : Str) : List Step → Str
  | [.args as] => F.funcCall id as
  | .args as :: .attr m :: rest =>
    match as with
    | [a, b] =>
      if m = "setitem".toList then createRev F id rest ++ '[' :: a ++ "] = ".toList ++ b
      else if m = "callmethod".toList then F.callMethod (createRev F id rest) a b
      else rootText id ++ stepsText (.args as :: .attr m :: rest).reverse
    | [a] =>
      if m = "getitem".toList then createRev F id rest ++ '[' :: a ++ [']']
      else rootText id ++ stepsText (.args as :: .attr m :: rest).reverse
    | _ => rootText id ++ stepsText (.args as :: .attr m :: rest).reverse
  | steps => rootText id ++ stepsText steps.reverse

/-- vfp2py_convert_visitor.py:989-1006 -/
def createIdAttr (F : Other) (id : Str) (steps : List Step) : Str := createRev F id steps.reverse

/-- `visitIdAttr`, 1024-1030; `visitAtomExpr`, 1096-1110, in an expression.  `self.withid` is empty outside of WITH. -/
def refer (F : Other) (withid : Str) (r : Ref) : Str :=
  if r.dotted && withid != [] then createIdAttr F withid (.attr (identifier r.first) :: r.steps.map visitStep)
  else createIdAttr F (identifier r.first) (r.steps.map visitStep)

/-- `visitAtomExpr`, 1106-1107, for a reference that is a line of its own: a member is called. -/
def command (F : Other) (withid : Str) (r : Ref) : Str :=
  match r.steps.reverse with
  | .attr _ :: _ => refer F withid r ++ "()".toList
  | .args _ :: _ => refer F withid r
  | [] => if r.dotted && withid != [] then refer F withid r ++ "()".toList else refer F withid r

/-- The targets of assignments in `visitAssign`, 568-576. -/
def target (F : Other) (withid : Str) (r : Ref) : Str :=
  match r.steps.reverse with
  | .args as :: rest =>
    createIdAttr F (identifier r.first) (rest.reverse.map visitStep) ++ '[' :: [','].intercalate as ++ [']']
  | _ => refer F withid r

/-- Lines of a procedure: a line with a reference, an assignment to one, or a WITH block.
vfp2py_convert_visitor.py:219-225, 482-486 -/
inductive Line
  | use (r : Ref)
  | store (r : Ref)
  | block (object : Ref) (body : List Line)

mutual
/-- The converted references of a line and the value of `self.withid` behind it; `visitWithStmt`, 482-486. -/
def convLine (F : Other) (withid : Str) : Line → List Str × Str
  | .use r => ([refer F withid r], withid)
  | .store r => ([target F withid r], withid)
  | .block object body =>
    let o := refer F withid object
    let (refs, _) := convLines F o body
    (refs, [])
/-- Lines in order; `self.withid` is passed on. vfp2py_convert_visitor.py:219-225, 482-486 -/
def convLines (F : Other) (withid : Str) : List Line → List Str × Str
  | [] => ([], withid)
  | l :: ls =>
    let (a, w) := convLine F withid l
    let (b, w') := convLines F w ls
    (a ++ b, w')
end

end Model.Paths
