/-!
# Creating objects

Sources: `/repo/vfp2py/vfpfunc.py`, `Custom.__init__` (151-157), `init` (159-160), `_assign`
(182-183), `parentform` (172-180), the classes without PySide (771-845), `vfpclass` (1779-1787);
`/repo/vfp2py/vfp2py_convert_visitor.py`, `visitClassDef` (239-325): the generated `_assign` calls
`BaseClass._assign(self)` and then runs the statements of the class body in order.

Simplifications: a class is given with its chain of superclasses; classes do not contain themselves;
values of properties are numbers; which statements of a class body reach `_assign` is the subject of
C73 to C76, here they are given.  An INIT method is a function of the arguments and of the properties
of its own object, which gives the new properties and the value it returns; what it could see of the
objects around its own is recorded in the event.  The widgets of Qt and their order on the screen
are left out.
-/
namespace Model.Creation

/-- Names of properties and members, vfpfunc.py:150-183 -/
abbrev Name := String
/-- The place of an object: the names of the members that lead to it, vfp2py_convert_visitor.py:273 -/
abbrev Path := List Name

/-- Values of properties, vfpfunc.py:150-183 -/
inductive Val where
  | num (n : Int)
  /-- a member object -/
  | object
  deriving DecidableEq, Repr

/-- The attributes of an object, without `parent`. vfpfunc.py:151-157 -/
abbrev Attrs := Name → Option Val

/-- `setattr`, vfpfunc.py:154 -/
def Attrs.set (a : Attrs) (x : Name) (v : Val) : Attrs := fun y => if y = x then some v else a y

/-- `for key in kwargs: setattr(self, key, kwargs[key])`, vfpfunc.py:153-154; the names are
different. -/
def Attrs.setAll (a : Attrs) (kw : List (Name × Int)) : Attrs := kw.foldl (fun a p => a.set p.1 (.num p.2)) a

/-- An INIT method. vfpfunc.py:159-160 or a method of the program -/
abbrev Init := List Int → Attrs → Attrs × Bool

mutual
/-- A class: one of the library (`form`: a form or toolbar), or a class definition with its
superclass. vfp2py_convert_visitor.py:239-325; vfpfunc.py:150-183, 774-845 -/
inductive Cls where
  | lib (form : Bool) (attrs : Attrs)
  | sub (base : Cls) (body : Body) (init : Option Init)
/-- The statements of a class body that get into `_assign`: `x = v` and ADD OBJECT. vfp2py_convert_visitor.py:239-290 -/
inductive Body where
  | nil
  | prop (x : Name) (v : Int) (rest : Body)
  | add (n : Name) (c : Cls) (kw : List (Name × Int)) (rest : Body)
end

/-- The attributes of an object of the library class at the end of the chain. vfpfunc.py:150-183 -/
def Cls.start : Cls → Attrs
  | .lib _ a => a
  | .sub b _ _ => b.start

/-- vfpfunc.py:172-180, 225, 586 -/
def Cls.form : Cls → Bool
  | .lib f _ => f
  | .sub b _ _ => b.form

/-- `self.init`: the method of the class or the nearest one above; that of the library does nothing
(vfpfunc.py:159-160). -/
def Cls.init : Cls → Init
  | .lib _ _ => fun _ a => (a, true)
  | .sub _ _ (some f) => f
  | .sub b _ none => b.init

/-- An object around the one whose INIT runs; `linked`: its attribute `parent` is set. vfpfunc.py:172-180 -/
structure Frame where
  attrs : Attrs
  form : Bool
  linked : Bool

/-- The run of an INIT method: the object, its properties before and after, the value returned, and
the object with those around it, from the inside. vfpfunc.py:157 -/
structure Event where
  path : Path
  before : Attrs
  after : Attrs
  ret : Bool
  self : Frame
  around : List Frame

/-- The rest of `__init__` (vfpfunc.py:153-157) after `_assign`; a member has the keyword `parent`. -/
def finish (around : List Frame) (path : Path) (c : Cls) (kw : List (Name × Int)) (member : Bool) (args : List Int) (a : Attrs) : Event :=
  let a := a.setAll kw
  let r := c.init args a
  { path := path, before := a, after := r.1, ret := r.2, self := ⟨a, c.form, member⟩, around := around }

mutual
/-- `_assign` of a class, vfp2py_convert_visitor.py:287: `BaseClass._assign(self)` comes first; that
of the library does nothing (vfpfunc.py:182-183).  The object has the attributes `a`; its `parent`
is not set yet.  -/
def assign (around : List Frame) (path : Path) (form : Bool) : Cls → Attrs → Attrs × List Event
  | .lib _ _, a => (a, [])
  | .sub b body _, a =>
    let r := assign around path form b a
    let s := assignBody around path form body r.1
    (s.1, r.2 ++ s.2)
/-- The statements of one class body: `self.x = v` and `self.n = Type(kw, parent=self, name='n')`.
vfp2py_convert_visitor.py:287-290 -/
def assignBody (around : List Frame) (path : Path) (form : Bool) : Body → Attrs → Attrs × List Event
  | .nil, a => (a, [])
  | .prop x v rest, a => assignBody around path form rest (a.set x (.num v))
  | .add n c kw rest, a =>
    let inside := ⟨a, form, false⟩ :: around
    let m := assign inside (path ++ [n]) c.form c c.start
    let e := finish inside (path ++ [n]) c kw true [] m.1
    let s := assignBody around path form rest (a.set n .object)
    (s.1, m.2 ++ [e] ++ s.2)
end

/-- `Type(*args)`, with PySide: the INIT methods that run, the last one being that of the object. vfpfunc.py:151-157, 1779-1787 -/
def create (c : Cls) (args : List Int) : List Event :=
  let r := assign [] [] c.form c c.start
  r.2 ++ [finish [] [] c [] false args r.1]

/-- The object that `Type(*args)` has as its value: there always is one, `__init__` cannot prevent
it. vfpfunc.py:151-157 -/
def created (c : Cls) (args : List Int) : Option Attrs := (create c args).getLast?.map Event.after

/-- `parentform`, vfpfunc.py:172-180, for an object (or one around it) and the objects around it:
the number of steps up to the form.  An object without the attribute `parent` is an error. -/
def parentform (self : Frame) : List Frame → Option Nat
  | [] => if self.form then some 0 else none
  | f :: fs => if self.form then some 0 else if self.linked then (parentform f fs).map (· + 1) else none

/-- `Type(*args)` without PySide: `Custom` is empty (vfpfunc.py:771-773), so `object.__init__` runs,
which refuses arguments and calls neither `_assign` nor `init`. -/
def createPlain (_c : Cls) (args : List Int) : Option (Attrs × List Event) :=
  if args = [] then some (fun _ => none, []) else none

end Model.Creation
