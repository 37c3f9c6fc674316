import Verif.Model.Paths
/-!
# Members of objects

What a reference to a member of an object is in Python: `self`, `self.parentform` or `S.name` with attributes and
calls behind it.  The description uses the types of references and the list of keywords of the model only.
-/
namespace MemberSpec
open Model.Paths (Ref Step Line)
open Model.ModuleNames (keywords)

abbrev Str := List Char

def lower (s : Str) : Str := s.map Char.toLower

/-- Arguments with commas between them. -/
def commas : List Str → Str
  | [] => []
  | [a] => a
  | a :: as => a ++ ", ".toList ++ commas as

/-- A member or a call; Python has no attributes whose names are keywords. -/
def stepCode : Step → Option Str
  | .attr n => if lower n ∈ keywords then none else some ('.' :: lower n)
  | .args as => some ('(' :: commas as ++ [')'])

def path (base : Str) : List Step → Option Str
  | [] => some base
  | s :: ss => (stepCode s).bind fun t => path (base ++ t) ss

/-- The object that a name stands for. -/
def root (x : Str) : Option Str :=
  if lower x = "this".toList then some "self".toList
  else if lower x = "thisform".toList then some "self.parentform".toList
  else if lower x ∈ keywords then none
  else some ("S.".toList ++ lower x)

/-- What a reference means inside the WITH blocks for the given objects, the innermost first. A leading
dot outside of all WITH blocks means nothing. -/
def meaning (objects : List Str) (r : Ref) : Option Str :=
  if r.dotted then
    match objects with
    | [] => none
    | o :: _ => path o (.attr r.first :: r.steps)
  else (root r.first).bind fun b => path b r.steps

/-- An assignment to an element of an array has brackets. -/
def targetMeaning (objects : List Str) (r : Ref) : Option Str :=
  match r.steps.getLast? with
  | some (.args as) => (meaning objects { r with steps := r.steps.dropLast }).map fun t => t ++ '[' :: [','].intercalate as ++ [']']
  | _ => meaning objects r

/-- A reference that is a line of its own is a call of the member, with or without parentheses. -/
def called (steps : List Step) (t : Str) : Str :=
  match steps.getLast? with
  | some (.args _) => t
  | _ => t ++ "()".toList

mutual
/-- The meaning of the references of a line, in order. -/
def lineMeans (objects : List Str) : Line → Option (List Str)
  | .use r => (meaning objects r).map ([·])
  | .store r => (targetMeaning objects r).map ([·])
  | .block object body => (meaning objects object).bind fun o => linesMean (o :: objects) body
def linesMean (objects : List Str) : List Line → Option (List Str)
  | [] => some []
  | l :: ls => (lineMeans objects l).bind fun a => (linesMean objects ls).map (a ++ ·)
end

end MemberSpec
