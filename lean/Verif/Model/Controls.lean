import Verif.Py.Dict
/-!
# The properties of forms and controls

The classes of vfpfunc.py:61-735 (with PySide), as far as their Python properties go: what reading and
assigning a property does to the Qt widget.

Simplifications: a Qt widget is a map from the settings that the properties use to values; sizes are clamped
to what Qt allows, layouts do not change fixed sizes; colours, `rowsource`, `recordsource`, `allowrowsizing`
and events are left out.
-/
namespace Model.Controls

/-- Text as a list of characters; a Python `str` at vfpfunc.py:61-752. -/
abbrev Str := List Char
/-- Names of properties, vfpfunc.py:61-752 -/
abbrev Name := String

/-- The values assigned to properties, vfpfunc.py:61-752 -/
inductive Val where
  | int (n : Int)
  | bool (b : Bool)
  | text (s : Str)
  /-- a Qt object, such as an icon -/
  | object
  deriving DecidableEq, Repr

/-- The exceptions of vfpfunc.py:61-752 -/
inductive Err where
  | typeError | attributeError
  deriving DecidableEq, Repr

/-- The settings of a widget. vfpfunc.py:68-735 -/
inductive Field where
  | height | width | text | title | toolTip | family
  | flat | bold | italic | strikeOut | underline | editable | multi | selectItems | ownEnabled | ownVisible
  | pointSize | spin
  deriving DecidableEq, Repr

/-- A control: the widget, the items and the current item of a combo box, the buttons of an option group,
whether the widgets it is in are visible and enabled, and the other attributes of the object. vfpfunc.py:150-735 -/
structure Obj where
  qt : Field → Val
  items : List Str
  index : Option Nat
  buttons : List Bool
  parentVisible : Bool
  parentEnabled : Bool
  attrs : Py.Dict Name Val

/-- The functions under `@property`, vfpfunc.py:68-735 -/
abbrev Getter := Obj → Except Err Val
/-- The functions under `.setter`, vfpfunc.py:68-735 -/
abbrev Setter := Val → Obj → Except Err Obj

/-- The effect of a Qt setter, such as vfpfunc.py:212 -/
def Obj.put (o : Obj) (f : Field) (v : Val) : Obj := { o with qt := fun g => if g = f then v else o.qt g }

/-- A Qt getter, such as vfpfunc.py:208 -/
def read (f : Field) : Getter := fun o => .ok (o.qt f)
/-- `setText` and the like take a text. Such as vfpfunc.py:204 -/
def putText (f : Field) : Setter
  | .text s, o => .ok (o.put f (.text s))
  | _, _ => .error .typeError
/-- Parameters of type `bool`. Such as vfpfunc.py:317, 352 -/
def putBool (f : Field) : Setter
  | .bool b, o => .ok (o.put f (.bool b))
  | .int n, o => .ok (o.put f (.bool (n != 0)))
  | _, _ => .error .typeError
/-- `setFixedHeight`, `setFixedWidth`: at least 0, at most QWIDGETSIZE_MAX. Such as vfpfunc.py:260, 268 -/
def putSize (f : Field) : Setter
  | .int n, o => .ok (o.put f (.int (max 0 (min 16777215 n))))
  | .bool b, o => .ok (o.put f (.int (if b then 1 else 0)))
  | _, _ => .error .typeError
/-- `setPointSize`: sizes below 1 are ignored. vfpfunc.py:145-148 -/
def putPoint : Setter
  | .int n, o => .ok (if 0 < n then o.put .pointSize (.int n) else o)
  | .bool b, o => .ok (if b then o.put .pointSize (.int 1) else o)
  | _, _ => .error .typeError
/-- `QSpinBox.setValue` with the initial range. vfpfunc.py:547-551 -/
def putSpin : Setter
  | .int n, o => .ok (o.put .spin (.int (max 0 (min 99 n))))
  | .bool b, o => .ok (o.put .spin (.int (if b then 1 else 0)))
  | _, _ => .error .typeError

/-- The truth of a value in a setter such as vfpfunc.py:95-148 -/
def asBool : Val → Bool
  | .bool b => b
  | .int n => n != 0
  | .text s => s != []
  | .object => true

/-- `isVisible()`, `isEnabled()`: also of the widgets around. vfpfunc.py:321, 406 -/
def isVisible : Getter := fun o => .ok (.bool (asBool (o.qt .ownVisible) && o.parentVisible))
/-- vfpfunc.py:313, 692, 727 -/
def isEnabled : Getter := fun o => .ok (.bool (asBool (o.qt .ownEnabled) && o.parentEnabled))

/-- `val == n` for a number. The comparisons in setters, vfpfunc.py:513-515, 614-616, 674-676 -/
def eqNum (v : Val) (n : Int) : Bool :=
  match v with
  | .int m => m = n
  | .bool b => (if b then 1 else 0) = n
  | _ => false

/-! ## Class bodies -/

/-- A statement of a class body: `@property def name`, or `@of.setter def name`. vfpfunc.py:68-735 -/
inductive Decl where
  | prop (name : Name) (g : Getter)
  | setter (of name : Name) (s : Setter)

/-- A Python `property` object, vfpfunc.py:68-735 -/
structure Prop_ where
  get : Getter
  set : Option Setter

/-- Python's execution of the class body: `x.setter` makes a property with the getter of `x`, which is
bound to the name of the function. vfpfunc.py:68-735 -/
def exec (d : Py.Dict Name Prop_) : Decl → Option (Py.Dict Name Prop_)
  | .prop n g => some (Py.Dict.set d n ⟨g, none⟩)
  | .setter o n s => (Py.Dict.get d o).map fun p => Py.Dict.set d n ⟨p.get, some s⟩

/-- A class body of vfpfunc.py:68-735 -/
def execAll : Py.Dict Name Prop_ → List Decl → Option (Py.Dict Name Prop_)
  | d, [] => some d
  | d, c :: cs => (exec d c).bind fun d1 => execAll d1 cs

/-- A property and its setter of the same name. Such as vfpfunc.py:198-204 -/
def pair (n : Name) (g : Getter) (s : Setter) : List Decl := [.prop n g, .setter n n s]

/-- `HasFont`, vfpfunc.py:89-142.  `QFont` has no method `fontunderline` (131). -/
def hasFont : List Decl :=
  pair "fontname" (read .family) (putText .family) ++
  pair "fontbold" (read .bold) (putBool .bold) ++
  pair "fontitalic" (read .italic) (putBool .italic) ++
  pair "fontstrikethru" (read .strikeOut) (putBool .strikeOut) ++
  pair "fontunderline" (fun _ => .error .attributeError) (putBool .underline) ++
  pair "fontsize" (read .pointSize) putPoint

/-- An icon is made of the name of a file; the name is not kept. vfpfunc.py:214-220, 270-276 -/
def icon : List Decl := pair "icon" (fun _ => .ok .object) (fun v o => match v with | .text _ => .ok o | _ => .error .typeError)

/-- `height` and `width` as written in most classes: `@height.setter def width`. Such as vfpfunc.py:254-268 -/
def size : List Decl :=
  pair "height" (read .height) (putSize .height) ++ [.prop "width" (read .width), .setter "height" "width" (putSize .width)]

/-- vfpfunc.py:185-735 -/
inductive Class where
  | mainWindow | form | commandbutton | label | textbox | checkbox | combobox | spinner | shape | listbox | grid | optionbutton
  | optiongroup
  deriving DecidableEq, Repr

/-- The setter of `Combobox.value`, vfpfunc.py:467-473: the item with that text without regard to case, or none. -/
def selectText : Setter
  | .text s, o => .ok { o with index := o.items.findIdx? fun t => t.map Char.toLower = s.map Char.toLower }
  | _, _ => .error .typeError

/-- vfpfunc.py:463-465 -/
def currentText : Getter := fun o => .ok (.text ((o.index.bind fun i => o.items[i]?).getD []))

/-- `Optiongroup.buttoncount`, 700-710: buttons are added; `deleteLater` leaves them in the group for now. -/
def setCount : Setter
  | .int n, o => .ok { o with buttons := o.buttons ++ List.replicate (n.toNat - o.buttons.length) true }
  | _, _ => .error .typeError

/-- The class bodies. vfpfunc.py:185-735 -/
def body : Class → List Decl
  | .mainWindow => pair "caption" (read .title) (putText .title) ++ pair "height" (read .height) (putSize .height) ++ icon -- :185-215
  | .form => pair "caption" (read .title) (putText .title) ++ size ++ icon                                     -- :219-269
  | .commandbutton =>                                                                                       -- :271-349
    pair "caption" (read .text) (putText .text) ++ size ++ pair "enabled" isEnabled (putBool .ownEnabled) ++
    pair "visible" isVisible (putBool .ownVisible) ++
    pair "picture" (fun _ => .ok .object) (fun v o => match v with | .text _ => .ok o | _ => .error .typeError) ++
    pair "tooltiptext" (read .toolTip) (putText .toolTip) ++
    pair "specialeffect" (fun o => .ok (.int (if asBool (o.qt .flat) then 2 else 0)))
      (fun v o => .ok (o.put .flat (.bool (eqNum v 2))))
  | .label => pair "caption" (read .text) (putText .text) ++ size                                             -- :351-380
  | .textbox =>                                                                                             -- :382-418
    pair "height" (read .height) (putSize .height) ++ pair "value" (read .text) (putText .text) ++
    pair "visible" isVisible (putBool .ownVisible)
  | .checkbox => pair "caption" (read .text) (putText .text) ++ pair "height" (read .height) (putSize .height) -- :420-448
  | .combobox =>                                                                                            -- :450-521
    pair "value" currentText selectText ++
    pair "caption" (fun _ => .error .attributeError) (fun _ _ => .error .attributeError) ++ size ++
    pair "style" (fun o => .ok (.int (if asBool (o.qt .editable) then 0 else 2))) (fun v o => .ok (o.put .editable (.bool (eqNum v 0))))
  | .spinner => pair "value" (read .spin) putSpin                                                            -- :523-560
  | .shape => size                                                                                          -- :562-582
  | .listbox => pair "multiselect" (fun o => .ok (.int (if asBool (o.qt .multi) then 1 else 0)))                -- :600-626
      (fun v o => .ok (o.put .multi (.bool (asBool v))))
  | .grid => pair "allowcellselection" (fun o => .ok (.bool (!asBool (o.qt .selectItems))))                    -- :628-682
      (fun v o => .ok (o.put .selectItems (.bool (asBool v))))
  | .optionbutton => pair "caption" (read .text) (putText .text) ++ pair "enabled" isEnabled (putBool .ownEnabled) -- :712-731
  | .optiongroup =>                                                                                         -- :684-710
    pair "enabled" (fun o => .ok (.bool (o.buttons.any id && o.parentEnabled)))
      (fun v o => .ok { o with buttons := o.buttons.map fun _ => asBool v }) ++
    pair "buttoncount" (fun o => .ok (.int o.buttons.length)) setCount

/-- The base class with properties. The lists of base classes, vfpfunc.py:185-735 -/
def bases : Class → List Decl
  | .mainWindow | .shape | .listbox | .optiongroup => []
  | _ => hasFont

/-- The property that a name stands for: of the class, else of the base. Attribute lookup on the classes of vfpfunc.py:185-735 -/
def property (c : Class) (x : Name) : Option Prop_ :=
  match Py.Dict.get ((execAll [] (body c)).getD []) x with
  | some p => some p
  | none => Py.Dict.get ((execAll [] (bases c)).getD []) x

/-- `obj.x`; methods of Qt that have the name of a FoxPro property are left out.
Attribute lookup on the classes of vfpfunc.py:185-735 -/
def getattr (c : Class) (x : Name) (o : Obj) : Except Err Val :=
  match property c x with
  | some p => p.get o
  | none => match Py.Dict.get o.attrs x with
    | some v => .ok v
    | none => .error .attributeError

/-- `obj.x = v`. Assignment to attributes of the classes of vfpfunc.py:185-735 -/
def setattr (c : Class) (x : Name) (v : Val) (o : Obj) : Except Err Obj :=
  match property c x with
  | some p => match p.set with
    | some s => s v o
    | none => .error .attributeError
  | none => .ok { o with attrs := Py.Dict.set o.attrs x v }

end Model.Controls
