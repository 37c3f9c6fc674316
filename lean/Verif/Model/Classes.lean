import Verif.Py.Dict
/-!
# Conversion of class definitions

Source: `/repo/vfp2py/vfp2py_convert_visitor.py`, `visitClassDef` (239-325) with what it calls:
`visit_with_disabled_scope` (145-149), `visitClassAssign` (338-347), `visitAddObject` (349-354),
`visitFuncDef` (376-404), and of the expression visitors `visitAssign` (565-585), `scopeId`
(972-987), `createIdAttr` (989-1006), `visitIdentTrailer` (1019-1022), `visitIdAttr` (1024-1030).

Simplifications: the values of assignments and the lines of methods are texts; names are lower-case
Python identifiers; targets have no subscripts and no leading dot (a leading dot outside of WITH
means nothing); the assignment is not of the form `x = x + ...` (C45); line comments behind a
method and behind the class are left out; the superclass and the order of the generated
`SubClass` definitions are left out.
-/
namespace Model.Classes
open Py

/-- Identifiers, vfp2py_convert_visitor.py:1396-1402 -/
abbrev Name := String

/-- A chain of identifiers, `a.b.c`. vfp2py_convert_visitor.py:1024-1034 -/
abbrev Path := List Name

/-- An expression on the right of an assignment.  `code b` is its code when the visitor's flag
`scope` is `b` at its beginning; `member` tells whether it contains a member access `a.b`, which is
visited by `visitIdentTrailer`. vfp2py_convert_visitor.py:338-347, 565-585 -/
structure Value where
  code : Bool → String
  member : Bool

/-- `visit_with_disabled_scope`, vfp2py_convert_visitor.py:145-149, sets the flag and at the end
always sets it to `True`; `visitIdentTrailer` (1019-1022) calls it for the names behind a dot. So
the flag after a chain of identifiers or a value is: -/
def flagAfter (member scope : Bool) : Bool := if member then true else scope

/-- `scopeId(identifier, 'val')`, vfp2py_convert_visitor.py:972-987. -/
def scopeId (scope : Bool) (x : Name) : Path :=
  if scope = false then [x]
  else if x = "this" then ["self"]
  else if x = "thisform" then ["self", "parentform"]
  else ["S", x]

/-- `visitIdAttr` for `x.trailer`, vfp2py_convert_visitor.py:1024-1030 and 1003-1006: the trailer is
visited before the identifier is scoped.  Returns the path and the flag. -/
def visitTarget (scope : Bool) (target : Path) : Path × Bool :=
  match target with
  | [] => ([], scope)
  | x :: trailer =>
    let scope := flagAfter (!trailer.isEmpty) scope
    (scopeId scope x ++ trailer, scope)

/-- `visitAssign`, vfp2py_convert_visitor.py:565-585: the value is visited first; the trailer of the
target is visited on its own and with the target. -/
def visitAssign (scope : Bool) (target : Path) (value : Value) : Path × String :=
  let code := value.code scope
  let scope := flagAfter value.member scope
  let scope := flagAfter (!target.tail.isEmpty) scope
  ((visitTarget scope target).1, code)

/-- `visitClassAssign`, vfp2py_convert_visitor.py:338-347: the target as visited with the flag off,
the value as visited with the flag on. -/
def visitClassAssign (target : Path) (value : Value) : Path × String :=
  ((visitAssign false target value).1, (visitAssign true target value).2)

/-- Lines of a method. As used by vfp2py_convert_visitor.py:376-404 -/
inductive Line where
  | comment (text : String)
  /-- LPARAMETERS (`isLocal`) or PARAMETERS. -/
  | parameters (isLocal : Bool) (names : List Name)
  | stmt (text : String)
  deriving DecidableEq, Repr

/-- PROCEDURE/FUNCTION in a class, with the parameters of its header. vfp2py_convert_visitor.py:376-404, 356-358 -/
structure Method where
  name : Path
  header : List Name
  lines : List Line
  deriving DecidableEq, Repr

/-- Decorator (`lparameters`/`parameters` with the names) and body. vfp2py_convert_visitor.py:404 -/
structure MethodCode where
  isLocal : Bool
  params : List Name
  body : List Line
  deriving DecidableEq, Repr

/-- The first line that is not a comment, when it is a parameter statement, and the lines without
it; vfp2py_convert_visitor.py:382-391. -/
def takeParameters : List Line → Option (Bool × List Name × List Line)
  | [] => none
  | .comment t :: ls => (takeParameters ls).map fun (b, ns, rest) => (b, ns, .comment t :: rest)
  | .parameters b ns :: ls => some (b, ns, ls)
  | .stmt _ :: _ => none

/-- `visitDeclaration` gives nothing for a parameter statement (533-535): these lines are not part
of the body. -/
def bodyOf (ls : List Line) : List Line :=
  ls.filter fun
    | .parameters _ _ => false
    | _ => true

/-- `visitFuncDef`, vfp2py_convert_visitor.py:376-404.  The parameter line is removed from the tree:
the second component is the method that the next visit finds. -/
def visitFuncDef (m : Method) : MethodCode × Method :=
  if m.header ≠ [] then (⟨true, m.header, bodyOf m.lines⟩, m)
  else
    match takeParameters m.lines with
    | some (b, ns, rest) => (⟨b, ns, bodyOf rest⟩, { m with lines := rest })
    | none => (⟨true, [], bodyOf m.lines⟩, m)

/-- Members of a class definition. vfp2py_convert_visitor.py:243-254; the rule VisualFoxpro9.g4 `classProperty` -/
inductive Member where
  | comment (text : String)
  | assign (target : Path) (value : Value)
  | addObject (name : Name) (type : String) (withs : List (Name × String))
  /-- `DIMENSION name[...]`, with the code of the array. -/
  | array (name : Name) (code : String)
  | method (m : Method)

/-- Statements of the generated method `_assign`. vfp2py_convert_visitor.py:248, 250, 273 -/
inductive Init where
  | comment (text : String)
  /-- `self.name = value`. -/
  | prop (name : Name) (value : String)
  /-- `self.name = type(args)`. -/
  | create (name : Name) (type : String) (args : Dict Name String)
  deriving DecidableEq, Repr

/-- The generated class: the statements of `_assign`, the nested classes for objects with methods
(with their superclass) and the methods. vfp2py_convert_visitor.py:287-325 -/
structure ClassCode where
  inits : List Init
  subclasses : Dict Name (String × Dict Name MethodCode)
  methods : Dict Name MethodCode
  deriving DecidableEq, Repr

/-- vfp2py_convert_visitor.py:243. -/
def methodsOf : List Member → List Method
  | [] => []
  | .method m :: ms => m :: methodsOf ms
  | _ :: ms => methodsOf ms

/-- vfp2py_convert_visitor.py:244. -/
def assignsOf : List Member → List (Path × String)
  | [] => []
  | .assign t v :: ms => visitClassAssign t v :: assignsOf ms
  | _ :: ms => assignsOf ms

/-- `parent, ident = ident.split('.', 1)`; `if parent == name: obj['args'][ident] = ...`,
vfp2py_convert_visitor.py:254-258.  The rest of the path is the key. -/
def addAssign (name : Name) (args : Dict Name String) (a : Path × String) : Dict Name String :=
  match a.1 with
  | parent :: x :: rest => if parent = name then args.set (".".intercalate (x :: rest)) a.2 else args
  | _ => args

/-- `func_parent, funcname = funcname.rsplit('.', 1)`; `if func_parent == name: ...`,
vfp2py_convert_visitor.py:260-265 (`name` is one identifier). -/
def addFunction (name : Name) (fs : Dict Name MethodCode) (m : Method) : Dict Name MethodCode :=
  match m.name with
  | [parent, f] => if parent = name then fs.set f (visitFuncDef m).1 else fs
  | _ => fs

/-- The name of the nested class, vfp2py_convert_visitor.py:269 (`name.title()` is simplified to the
name itself; `title` keeps different lower-case names different). -/
def subclassName (name : Name) : Name := "SubClass" ++ name

/-- What the loop over the members carries along. vfp2py_convert_visitor.py:240-273 -/
structure LoopState where
  methods : List Method
  inits : List Init
  subclasses : Dict Name (String × Dict Name MethodCode)

/-- The keyword arguments of the created object, vfp2py_convert_visitor.py:253-258, 266-267. -/
def objectArgs (assigns : List (Path × String)) (name : Name) (withs : List (Name × String)) :
    Dict Name String :=
  (((assigns.foldl (addAssign name) (Dict.update [] withs)).set "parent" "self").set "name" name)

/-- The methods given for an object of the class, vfp2py_convert_visitor.py:259-265. -/
def objectFunctions (methods : List Method) (name : Name) : Dict Name MethodCode :=
  methods.foldl (addFunction name) []

/-- ADD OBJECT, vfp2py_convert_visitor.py:252-273.  Every method is visited. -/
def addObjectStep (assigns : List (Path × String)) (s : LoopState) (name : Name) (type : String)
    (withs : List (Name × String)) : LoopState :=
  let functions := objectFunctions s.methods name
  let methods := s.methods.map fun m => (visitFuncDef m).2
  let args := objectArgs assigns name withs
  if functions.isEmpty then
    { s with methods := methods, inits := s.inits ++ [.create name type args] }
  else
    { methods := methods
      inits := s.inits ++ [.create name ("self." ++ subclassName name) args]
      subclasses := s.subclasses.set (subclassName name) (type, functions) }

/-- One turn of the loop, vfp2py_convert_visitor.py:245-273: commands other than assignments and ADD
OBJECT are passed over. -/
def memberStep (assigns : List (Path × String)) (s : LoopState) : Member → LoopState
  | .comment t => { s with inits := s.inits ++ [.comment t] }
  | .assign t v =>
    match visitClassAssign t v with
    | ([x], code) => { s with inits := s.inits ++ [.prop x code] }
    | _ => s
  | .addObject name type withs => addObjectStep assigns s name type withs
  | .array _ _ => s
  | .method _ => s

/-- The loop over the methods, vfp2py_convert_visitor.py:279-283. -/
def addMethod (fs : Dict Name MethodCode) (m : Method) : Dict Name MethodCode :=
  match m.name with
  | [f] => fs.set f (visitFuncDef m).1
  | _ => fs

/-- `visitClassDef`, vfp2py_convert_visitor.py:239-325.  The generated `_assign` itself is kept
apart from the methods; it replaces a method of that name (289-290). -/
def visitClassDef (ms : List Member) : ClassCode :=
  let s := ms.foldl (memberStep (assignsOf ms)) ⟨methodsOf ms, [], []⟩
  { inits := s.inits, subclasses := s.subclasses, methods := s.methods.foldl addMethod [] }

end Model.Classes
