import Verif.Model.Controls
/-!
# C121: properties of forms and controls
-/
namespace Props

namespace ControlsSpec
open Model.Controls (Val Class Name Obj Str)

/-- Properties of FoxPro's controls. -/
inductive Property where
  | caption | height | width | left | top | enabled | visible | tooltiptext | icon | picture
  | fontname | fontbold | fontitalic | fontstrikethru | fontunderline | fontsize
  | specialeffect | style | multiselect | allowcellselection | value | buttoncount
  deriving DecidableEq

def name : Property → Name
  | .caption => "caption" | .height => "height" | .width => "width" | .left => "left" | .top => "top"
  | .enabled => "enabled" | .visible => "visible" | .tooltiptext => "tooltiptext" | .icon => "icon" | .picture => "picture"
  | .fontname => "fontname" | .fontbold => "fontbold" | .fontitalic => "fontitalic" | .fontstrikethru => "fontstrikethru"
  | .fontunderline => "fontunderline" | .fontsize => "fontsize" | .specialeffect => "specialeffect" | .style => "style"
  | .multiselect => "multiselect" | .allowcellselection => "allowcellselection" | .value => "value" | .buttoncount => "buttoncount"

/-- The values that a property takes. -/
def Takes : Property → Val → Prop
  | .caption, v | .tooltiptext, v | .icon, v | .picture, v | .fontname, v => ∃ s, v = .text s
  | .height, v | .width, v | .left, v | .top, v => ∃ n : Int, v = .int n ∧ 0 ≤ n ∧ n ≤ 16777215
  | .enabled, v | .visible, v | .fontbold, v | .fontitalic, v | .fontstrikethru, v | .fontunderline, v
  | .multiselect, v | .allowcellselection, v => ∃ b, v = .bool b
  | .fontsize, v => ∃ n : Int, v = .int n ∧ 1 ≤ n
  | .specialeffect, v => v = .int 0 ∨ v = .int 1 ∨ v = .int 2
  | .style, v => v = .int 0 ∨ v = .int 2
  | .value, v => v ≠ .object
  | .buttoncount, v => ∃ n : Int, v = .int n ∧ 0 ≤ n

/-- Equality of values in programs: `.T.` and 1 are the same here. -/
def Same : Val → Val → Prop
  | .int n, .bool b => n = if b then 1 else 0
  | .bool b, .int n => n = if b then 1 else 0
  | v, w => v = w

end ControlsSpec

namespace ControlsAux
open Model.Controls ControlsSpec

/-- Assign, then read. -/
def readback (c : Class) (x : Name) (v : Val) (o : Obj) : Except Err Val := (setattr c x v o).bind (getattr c x)

def Returns (r : Except Err Val) (v : Val) : Prop := ∃ w, r = .ok w ∧ Same w v

/-- When a property reads back. -/
def Good : Class → Property → Val → Obj → Prop
  | .form, .width, v, o | .commandbutton, .width, v, o | .label, .width, v, o | .combobox, .width, v, o
  | .shape, .width, v, o => Same (o.qt .height) v
  | .mainWindow, .fontunderline, _, _ | .shape, .fontunderline, _, _ | .listbox, .fontunderline, _, _
  | .optiongroup, .fontunderline, _, _ => True
  | _, .fontunderline, _, _ => False
  | .mainWindow, .icon, _, _ | .form, .icon, _, _ | .commandbutton, .picture, _, _ => False
  | .combobox, .caption, _, _ => False
  | .grid, .allowcellselection, _, _ => False
  | .commandbutton, .specialeffect, v, _ => v ≠ .int 1
  | .commandbutton, .visible, v, o | .textbox, .visible, v, o => v = .bool false ∨ o.parentVisible = true
  | .commandbutton, .enabled, v, o | .optionbutton, .enabled, v, o => v = .bool false ∨ o.parentEnabled = true
  | .optiongroup, .enabled, v, o => v = .bool false ∨ (o.buttons ≠ [] ∧ o.parentEnabled = true)
  | .optiongroup, .buttoncount, v, o => ∃ n : Int, v = .int n ∧ (o.buttons.length : Int) ≤ n
  | .textbox, .value, v, _ => ∃ s, v = .text s
  | .spinner, .value, v, _ => (∃ n : Int, v = .int n ∧ 0 ≤ n ∧ n ≤ 99) ∨ ∃ b, v = .bool b
  | .combobox, .value, v, o => ∃ s, v = .text s ∧
      (o.items.find? fun t => t.map Char.toLower = s.map Char.toLower).getD [] = s
  | _, _, _, _ => True

theorem same_refl (v : Val) : Same v v := by cases v <;> simp [Same]

theorem readback_attr {c : Class} {x : Name} (h : property c x = none) (v : Val) (o : Obj) : readback c x v o = .ok v := by
  simp [readback, setattr, getattr, h, Except.bind, Py.Dict.get_set_self]

theorem readback_prop {c : Class} {x : Name} {g : Getter} {s : Setter} (h : property c x = some ⟨g, some s⟩) (v : Val) (o : Obj) :
    readback c x v o = (s v o).bind g := by
  simp only [readback, setattr, h, Except.bind]
  cases s v o with
  | error e => rfl
  | ok o' => simp only [getattr, h]

theorem text_back {c : Class} {x : Name} {f : Field} (h : property c x = some ⟨read f, some (putText f)⟩) (s : Str) (o : Obj) :
    Returns (readback c x (.text s) o) (.text s) := by
  rw [readback_prop h]; exact ⟨.text s, by simp [putText, Model.Controls.read, Obj.put, Except.bind], rfl⟩

theorem bool_back {c : Class} {x : Name} {f : Field} (h : property c x = some ⟨read f, some (putBool f)⟩) (b : Bool) (o : Obj) :
    Returns (readback c x (.bool b) o) (.bool b) := by
  rw [readback_prop h]; exact ⟨.bool b, by simp [putBool, Model.Controls.read, Obj.put, Except.bind], rfl⟩

theorem size_back {c : Class} {x : Name} {f : Field} (h : property c x = some ⟨read f, some (putSize f)⟩) {n : Int} (h0 : 0 ≤ n)
    (h1 : n ≤ 16777215) (o : Obj) : Returns (readback c x (.int n) o) (.int n) := by
  rw [readback_prop h]
  refine ⟨.int n, ?_, rfl⟩
  have : max 0 (min 16777215 n) = n := by omega
  simp [putSize, Model.Controls.read, Obj.put, Except.bind, this]

theorem width_back {c : Class} (h : property c "width" = some ⟨read .height, some (putSize .width)⟩) (n : Int) (o : Obj) :
    Returns (readback c "width" (.int n) o) (.int n) ↔ Same (o.qt .height) (.int n) := by
  rw [readback_prop h]
  simp [putSize, Model.Controls.read, Obj.put, Except.bind, Returns]

theorem underline_back {c : Class} (h : property c "fontunderline" = some ⟨fun _ => .error .attributeError, some (putBool .underline)⟩)
    (b : Bool) (o : Obj) : ¬ Returns (readback c "fontunderline" (.bool b) o) (.bool b) := by
  rw [readback_prop h]; simp [putBool, Except.bind, Returns]

theorem point_back {c : Class} (h : property c "fontsize" = some ⟨read .pointSize, some putPoint⟩) {n : Int} (h0 : 1 ≤ n) (o : Obj) :
    Returns (readback c "fontsize" (.int n) o) (.int n) := by
  rw [readback_prop h]
  have : 0 < n := by omega
  exact ⟨.int n, by simp [putPoint, Model.Controls.read, Obj.put, Except.bind, this], rfl⟩

theorem visible_back {c : Class} (h : property c "visible" = some ⟨isVisible, some (putBool .ownVisible)⟩) (b : Bool) (o : Obj) :
    Returns (readback c "visible" (.bool b) o) (.bool b) ↔ (Val.bool b = .bool false ∨ o.parentVisible = true) := by
  rw [readback_prop h]
  cases b <;> cases hp : o.parentVisible <;> simp [putBool, isVisible, Obj.put, Except.bind, Returns, asBool, Same, hp]

theorem enabled_back {c : Class} (h : property c "enabled" = some ⟨isEnabled, some (putBool .ownEnabled)⟩) (b : Bool) (o : Obj) :
    Returns (readback c "enabled" (.bool b) o) (.bool b) ↔ (Val.bool b = .bool false ∨ o.parentEnabled = true) := by
  rw [readback_prop h]
  cases b <;> cases hp : o.parentEnabled <;> simp [putBool, isEnabled, Obj.put, Except.bind, Returns, asBool, Same, hp]

theorem icon_back (s : Str) : ¬ Same .object (.text s) := by simp [Same]

theorem find_idx {α : Type} (f : α → Bool) : ∀ l : List α, (l.findIdx? f).bind (fun i => l[i]?) = l.find? f
  | [] => rfl
  | a :: l => by
    rw [List.findIdx?_cons, List.find?_cons]
    cases h : f a with
    | true => simp
    | false => rw [← find_idx f l]; cases List.findIdx? f l <;> simp

theorem good_iff (c : Class) (p : Property) (v : Val) (o : Obj) (hv : Takes p v) :
    Returns (readback c (name p) v o) v ↔ Good c p v o := by
  cases p <;> cases c <;>
    first
    | (rw [readback_attr (by rfl)]; simp [Returns, Good, same_refl]; done)
    | (obtain ⟨s, rfl⟩ := hv; exact iff_of_true (text_back (by rfl) s o) trivial)
    | (obtain ⟨s, rfl⟩ := hv; exact iff_of_true (bool_back (by rfl) s o) trivial)
    | (obtain ⟨n, rfl, h0, h1⟩ := hv; exact iff_of_true (size_back (by rfl) h0 h1 o) trivial)
    | (obtain ⟨n, rfl, h0, h1⟩ := hv; exact width_back (by rfl) n o)
    | (obtain ⟨n, rfl⟩ := hv; exact iff_of_false (underline_back (by rfl) n o) id)
    | (obtain ⟨n, rfl, h0⟩ := hv; exact iff_of_true (point_back (by rfl) h0 o) trivial)
    | (obtain ⟨n, rfl⟩ := hv; exact visible_back (by rfl) n o)
    | (obtain ⟨n, rfl⟩ := hv; exact enabled_back (by rfl) n o)
    | skip
  case caption.combobox =>
    rw [show name .caption = "caption" from rfl, readback_prop (by rfl)]
    simp [Returns, Except.bind, Good]
  case enabled.optiongroup =>
    obtain ⟨b, rfl⟩ := hv
    rw [show name .enabled = "enabled" from rfl, readback_prop (by rfl)]
    cases b <;> cases hp : o.parentEnabled <;> cases hb : o.buttons <;>
      simp [Returns, Except.bind, Good, Same, asBool, hp, hb]
  case icon.mainWindow =>
    obtain ⟨s, rfl⟩ := hv
    rw [show name .icon = "icon" from rfl, readback_prop (by rfl)]
    simp [Returns, Except.bind, Good, Same]
  case icon.form =>
    obtain ⟨s, rfl⟩ := hv
    rw [show name .icon = "icon" from rfl, readback_prop (by rfl)]
    simp [Returns, Except.bind, Good, Same]
  case picture.commandbutton =>
    obtain ⟨s, rfl⟩ := hv
    rw [show name .picture = "picture" from rfl, readback_prop (by rfl)]
    simp [Returns, Except.bind, Good, Same]
  case specialeffect.commandbutton =>
    rw [show name .specialeffect = "specialeffect" from rfl, readback_prop (by rfl)]
    rcases hv with rfl | rfl | rfl <;> simp [Returns, Except.bind, Good, Same, eqNum, Obj.put, asBool]
  case style.combobox =>
    rw [show name .style = "style" from rfl, readback_prop (by rfl)]
    rcases hv with rfl | rfl <;> simp [Returns, Except.bind, Good, Same, eqNum, Obj.put, asBool]
  case multiselect.listbox =>
    obtain ⟨b, rfl⟩ := hv
    rw [show name .multiselect = "multiselect" from rfl, readback_prop (by rfl)]
    cases b <;> simp [Returns, Except.bind, Good, Same, Obj.put, asBool]
  case allowcellselection.grid =>
    obtain ⟨b, rfl⟩ := hv
    rw [show name .allowcellselection = "allowcellselection" from rfl, readback_prop (by rfl)]
    cases b <;> simp [Returns, Except.bind, Good, Same, Obj.put, asBool]
  case value.textbox =>
    rw [show name .value = "value" from rfl, readback_prop (by rfl)]
    cases v <;> simp [Returns, Except.bind, Good, Same, Obj.put, putText, Model.Controls.read]
  case value.combobox =>
    rw [show name .value = "value" from rfl, readback_prop (by rfl)]
    cases v with
    | text s =>
      simp only [Returns, Except.bind, Good, selectText, currentText]
      have := find_idx (fun t : Str => decide (t.map Char.toLower = s.map Char.toLower)) o.items
      rw [this]
      simp [Same]
    | _ => simp [Returns, Except.bind, Good, selectText]
  case value.spinner =>
    rw [show name .value = "value" from rfl, readback_prop (by rfl)]
    cases v with
    | int n =>
      simp only [Returns, Except.bind, Good, putSpin, Model.Controls.read, Obj.put]
      simp [Same]
      omega
    | bool b => cases b <;> simp [Returns, Except.bind, Good, putSpin, Model.Controls.read, Obj.put, Same]
    | _ => simp [Returns, Except.bind, Good, putSpin]
  case buttoncount.optiongroup =>
    obtain ⟨n, rfl, h0⟩ := hv
    rw [show name .buttoncount = "buttoncount" from rfl, readback_prop (by rfl)]
    simp [Returns, Except.bind, Good, setCount, Same]
    omega

/-- The parts of a control. -/
inductive Part where
  | field (f : Field)
  | index
  | buttons
  | attr (x : Name)
  | nothing
  deriving DecidableEq

/-- The part that an assignment to the property changes. -/
def writes : Class → Property → Part
  | .mainWindow, .caption | .form, .caption => .field .title
  | .commandbutton, .caption | .label, .caption | .checkbox, .caption | .optionbutton, .caption => .field .text
  | .combobox, .caption => .nothing
  | .mainWindow, .height | .form, .height | .commandbutton, .height | .label, .height | .combobox, .height | .shape, .height
  | .textbox, .height | .checkbox, .height => .field .height
  | .form, .width | .commandbutton, .width | .label, .width | .combobox, .width | .shape, .width => .field .width
  | .commandbutton, .enabled | .optionbutton, .enabled => .field .ownEnabled
  | .optiongroup, .enabled | .optiongroup, .buttoncount => .buttons
  | .commandbutton, .visible | .textbox, .visible => .field .ownVisible
  | .commandbutton, .tooltiptext => .field .toolTip
  | .mainWindow, .icon | .form, .icon | .commandbutton, .picture => .nothing
  | .commandbutton, .specialeffect => .field .flat
  | .combobox, .style => .field .editable
  | .listbox, .multiselect => .field .multi
  | .grid, .allowcellselection => .field .selectItems
  | .textbox, .value => .field .text
  | .spinner, .value => .field .spin
  | .combobox, .value => .index
  | c, p =>
    match c, p with
    | .mainWindow, p | .shape, p | .listbox, p | .optiongroup, p => .attr (name p)
    | _, .fontname => .field .family
    | _, .fontbold => .field .bold
    | _, .fontitalic => .field .italic
    | _, .fontstrikethru => .field .strikeOut
    | _, .fontunderline => .field .underline
    | _, .fontsize => .field .pointSize
    | _, p => .attr (name p)

/-- The part that is read. -/
def reads (c : Class) (p : Property) : Part :=
  match c, p with
  | .form, .width | .commandbutton, .width | .label, .width | .combobox, .width | .shape, .width => .field .height
  | _, _ => writes c p

/-- Two controls are the same in a part. -/
def Agree (o o' : Obj) : Part → Prop
  | .field f => o.qt f = o'.qt f
  | .index => o.index = o'.index
  | .buttons => o.buttons = o'.buttons
  | .attr x => Py.Dict.get o.attrs x = Py.Dict.get o'.attrs x
  | .nothing => True

def SameOutside (o o' : Obj) : Prop := o.items = o'.items ∧ o.parentVisible = o'.parentVisible ∧ o.parentEnabled = o'.parentEnabled

/-- All parts but one are unchanged. -/
def Only (o o' : Obj) (w : Part) : Prop := SameOutside o o' ∧ ∀ r, r ≠ w → Agree o o' r

theorem only_put (o : Obj) (f : Field) (v : Val) : Only o (o.put f v) (.field f) := by
  refine ⟨⟨rfl, rfl, rfl⟩, fun r hr => ?_⟩
  cases r with
  | field g => simp only [Agree, Obj.put]; rw [if_neg (by rintro rfl; exact hr rfl)]
  | _ => simp [Agree, Obj.put]

theorem only_refl (o : Obj) (w : Part) : Only o o w := by
  refine ⟨⟨rfl, rfl, rfl⟩, fun r _ => ?_⟩
  cases r <;> simp [Agree]

theorem only_attr (o : Obj) (x : Name) (v : Val) : Only o { o with attrs := Py.Dict.set o.attrs x v } (.attr x) := by
  refine ⟨⟨rfl, rfl, rfl⟩, fun r hr => ?_⟩
  cases r with
  | attr y => simp only [Agree]; rw [Py.Dict.get_set_ne _ _ (by rintro rfl; exact hr rfl)]
  | _ => simp [Agree]

theorem set_attr {c : Class} {x : Name} (h : property c x = none) {v : Val} {o o' : Obj} (hs : setattr c x v o = .ok o') :
    Only o o' (.attr x) := by
  simp only [setattr, h] at hs
  cases hs
  exact only_attr o x v

theorem set_prop {c : Class} {x : Name} {g : Getter} {s : Setter} (h : property c x = some ⟨g, some s⟩) {w : Part}
    (hw : ∀ v o o', s v o = .ok o' → Only o o' w) {v : Val} {o o' : Obj} (hs : setattr c x v o = .ok o') : Only o o' w := by
  simp only [setattr, h] at hs
  exact hw v o o' hs

theorem text_only (f : Field) (v : Val) (o o' : Obj) (h : putText f v o = .ok o') : Only o o' (.field f) := by
  cases v <;> simp only [putText] at h <;> cases h; exact only_put _ _ _
theorem bool_only (f : Field) (v : Val) (o o' : Obj) (h : putBool f v o = .ok o') : Only o o' (.field f) := by
  cases v <;> simp only [putBool] at h <;> cases h <;> exact only_put _ _ _
theorem size_only (f : Field) (v : Val) (o o' : Obj) (h : putSize f v o = .ok o') : Only o o' (.field f) := by
  cases v <;> simp only [putSize] at h <;> cases h <;> exact only_put _ _ _
theorem spin_only (v : Val) (o o' : Obj) (h : putSpin v o = .ok o') : Only o o' (.field .spin) := by
  cases v <;> simp only [putSpin] at h <;> cases h <;> exact only_put _ _ _
theorem point_only (v : Val) (o o' : Obj) (h : putPoint v o = .ok o') : Only o o' (.field .pointSize) := by
  cases v <;> simp only [putPoint] at h <;> cases h <;> split <;> first | exact only_put _ _ _ | exact only_refl _ _

theorem flat_only (v : Val) (o o' : Obj) (h : Except.ok (o.put .flat (.bool (eqNum v 2))) = (Except.ok o' : Except Err Obj)) :
    Only o o' (.field .flat) := by cases h; exact only_put _ _ _
theorem editable_only (v : Val) (o o' : Obj) (h : Except.ok (o.put .editable (.bool (eqNum v 0))) = (Except.ok o' : Except Err Obj)) :
    Only o o' (.field .editable) := by cases h; exact only_put _ _ _
theorem multi_only (v : Val) (o o' : Obj) (h : Except.ok (o.put .multi (.bool (asBool v))) = (Except.ok o' : Except Err Obj)) :
    Only o o' (.field .multi) := by cases h; exact only_put _ _ _
theorem select_only (v : Val) (o o' : Obj) (h : Except.ok (o.put .selectItems (.bool (asBool v))) = (Except.ok o' : Except Err Obj)) :
    Only o o' (.field .selectItems) := by cases h; exact only_put _ _ _
theorem icon_only (v : Val) (o o' : Obj) (h : (match v with | .text _ => .ok o | _ => .error .typeError) = (Except.ok o' : Except Err Obj)) :
    Only o o' .nothing := by cases v <;> cases h; exact only_refl _ _
theorem none_only (_ : Val) (o o' : Obj) (h : Except.error Err.attributeError = (Except.ok o' : Except Err Obj)) :
    Only o o' .nothing := by cases h
theorem item_only (v : Val) (o o' : Obj) (h : selectText v o = .ok o') : Only o o' .index := by
  cases v <;> cases h
  refine ⟨⟨rfl, rfl, rfl⟩, fun r hr => ?_⟩
  cases r <;> simp [Agree] <;> exact absurd rfl hr
theorem count_only (v : Val) (o o' : Obj) (h : setCount v o = .ok o') : Only o o' .buttons := by
  cases v <;> cases h
  refine ⟨⟨rfl, rfl, rfl⟩, fun r hr => ?_⟩
  cases r <;> simp [Agree] <;> exact absurd rfl hr
theorem buttons_only (v : Val) (o o' : Obj)
    (h : Except.ok { o with buttons := o.buttons.map fun _ => asBool v } = (Except.ok o' : Except Err Obj)) : Only o o' .buttons := by
  cases h
  refine ⟨⟨rfl, rfl, rfl⟩, fun r hr => ?_⟩
  cases r <;> simp [Agree] <;> exact absurd rfl hr

theorem write_only (c : Class) (p : Property) (v : Val) (o o' : Obj) (h : setattr c (name p) v o = .ok o') : Only o o' (writes c p) := by
  cases p <;> cases c <;>
    first
    | exact set_attr (by rfl) h
    | exact set_prop (by rfl) (text_only _) h
    | exact set_prop (by rfl) (bool_only _) h
    | exact set_prop (by rfl) (size_only _) h
    | exact set_prop (by rfl) spin_only h
    | exact set_prop (by rfl) point_only h
    | exact set_prop (by rfl) flat_only h
    | exact set_prop (by rfl) editable_only h
    | exact set_prop (by rfl) multi_only h
    | exact set_prop (by rfl) select_only h
    | exact set_prop (by rfl) icon_only h
    | exact set_prop (by rfl) item_only h
    | exact set_prop (by rfl) count_only h
    | exact set_prop (by rfl) buttons_only h
    | exact set_prop (by rfl) none_only h

theorem get_attr {c : Class} {x : Name} (h : property c x = none) {o o' : Obj} (ha : Agree o o' (.attr x)) :
    getattr c x o = getattr c x o' := by
  simp only [getattr, h]
  simp only [Agree] at ha
  rw [ha]

theorem get_prop {c : Class} {x : Name} {g : Getter} {s : Option Setter} (h : property c x = some ⟨g, s⟩) {o o' : Obj} (hg : g o = g o') :
    getattr c x o = getattr c x o' := by
  simp only [getattr, h, hg]

theorem read_only (c : Class) (p : Property) (o o' : Obj) (hs : SameOutside o o') (ha : Agree o o' (reads c p)) :
    getattr c (name p) o = getattr c (name p) o' := by
  obtain ⟨h1, h2, h3⟩ := hs
  cases p <;> cases c <;>
    first
    | exact get_attr (by rfl) ha
    | (refine get_prop (by rfl) (?_ : Model.Controls.read _ o = Model.Controls.read _ o'); exact congrArg Except.ok ha)
    | (refine get_prop (by rfl) ?_
       simp only [reads, writes, Agree] at ha
       simp only [isVisible, isEnabled, currentText, ha, h1, h2, h3])

def classes : List Class := [.mainWindow, .form, .commandbutton, .label, .textbox, .checkbox, .combobox, .spinner, .shape, .listbox, .grid,
  .optionbutton, .optiongroup]

def properties : List Property := [.caption, .height, .width, .left, .top, .enabled, .visible, .tooltiptext, .icon, .picture,
  .fontname, .fontbold, .fontitalic, .fontstrikethru, .fontunderline, .fontsize, .specialeffect, .style, .multiselect,
  .allowcellselection, .value, .buttoncount]

theorem mem_classes (c : Class) : c ∈ classes := by cases c <;> decide
theorem mem_properties (p : Property) : p ∈ properties := by cases p <;> decide

/-- The pairs of properties that do not go together: assigning the first changes what the second reads. -/
def Linked : Class → Property → Property → Bool
  | .form, .height, .width | .commandbutton, .height, .width | .label, .height, .width | .combobox, .height, .width
  | .shape, .height, .width => true
  | .optiongroup, .buttoncount, .enabled => true
  | _, _, _ => false

theorem disjoint : ∀ c ∈ classes, ∀ p ∈ properties, ∀ q ∈ properties, p ≠ q → Linked c p q = false →
    reads c q ≠ writes c p ∨ reads c q = .nothing ∨ (c = .optiongroup ∧ p = .enabled ∧ q = .buttoncount) := by
  decide +kernel

theorem names_only {d : Py.Dict Name Prop_} (ks : List Property) (h : Py.Dict.keys d = ks.map name) {x : Name} (hx : ∀ p, x ≠ name p) :
    Py.Dict.get d x = none := by
  apply Py.Dict.get_none_of_not_mem
  intro hm
  rw [h] at hm
  obtain ⟨p, _, rfl⟩ := List.mem_map.mp hm
  exact hx p rfl

def fonts : List Property := [.fontname, .fontbold, .fontitalic, .fontstrikethru, .fontunderline, .fontsize]

def own : Class → List Property
  | .mainWindow => [.caption, .height, .icon]
  | .form => [.caption, .height, .width, .icon]
  | .commandbutton => [.caption, .height, .width, .enabled, .visible, .picture, .tooltiptext, .specialeffect]
  | .label => [.caption, .height, .width]
  | .textbox => [.height, .value, .visible]
  | .checkbox => [.caption, .height]
  | .combobox => [.value, .caption, .height, .width, .style]
  | .spinner => [.value]
  | .shape => [.height, .width]
  | .listbox => [.multiselect]
  | .grid => [.allowcellselection]
  | .optionbutton => [.caption, .enabled]
  | .optiongroup => [.enabled, .buttoncount]

theorem no_property {c : Class} {x : Name} (h : ∀ p, x ≠ name p) : property c x = none := by
  have h1 : Py.Dict.get ((execAll [] (body c)).getD []) x = none := names_only (own c) (by cases c <;> rfl) h
  have h2 : Py.Dict.get ((execAll [] hasFont).getD []) x = none := names_only fonts (by rfl) h
  have h3 : Py.Dict.get ((execAll [] (bases c)).getD []) x = none := by
    cases c <;> first | exact h2 | rfl
  simp only [property, h1, h3]

end ControlsAux

open Model.Controls ControlsSpec ControlsAux

/-- C121: for every class, every property, every value that the property takes and every state of the
control: the property reads back the value assigned exactly in the cases of `Good`. -/
theorem C121_readback_iff (c : Class) (p : Property) (v : Val) (o : Obj) (hv : Takes p v) :
    (∃ w, (setattr c (name p) v o).bind (getattr c (name p)) = .ok w ∧ Same w v) ↔ Good c p v o := good_iff c p v o hv

/-- A button in the window shown: its caption reads back. -/
example (o : Obj) : ∃ w, (setattr .commandbutton "caption" (.text "OK".toList) o).bind (getattr .commandbutton "caption") = .ok w ∧
    Same w (.text "OK".toList) := (C121_readback_iff .commandbutton .caption _ o ⟨_, rfl⟩).mpr trivial

/-- A spinner's value above 99 does not. -/
example (o : Obj) : ¬ ∃ w, (setattr .spinner "value" (.int 100) o).bind (getattr .spinner "value") = .ok w ∧ Same w (.int 100) := by
  rw [show ("value" : Name) = name .value from rfl, C121_readback_iff .spinner .value _ o (by simp [Takes])]
  simp [Good]

/-- A property that is none of these belongs to the program: every value reads back. -/
theorem C121_own_property (c : Class) (x : Name) (h : ∀ p, x ≠ name p) (v : Val) (o : Obj) :
    (setattr c x v o).bind (getattr c x) = .ok v := readback_attr (no_property h) v o

example (o : Obj) : (setattr .form "customer" (.int 7) o).bind (getattr .form "customer") = .ok (.int 7) :=
  C121_own_property .form "customer" (by intro p; cases p <;> decide) (.int 7) o

/-- An assignment changes no other property, but for the pairs in `Linked`. -/
theorem C121_others_partial (c : Class) (p q : Property) (hpq : p ≠ q) (hl : Linked c p q = false) (v : Val) (o o' : Obj)
    (h : setattr c (name p) v o = .ok o') : getattr c (name q) o' = getattr c (name q) o := by
  obtain ⟨hs, ho⟩ := write_only c p v o o' h
  rcases disjoint c (mem_classes c) p (mem_properties p) q (mem_properties q) hpq hl with hd | hn | ⟨rfl, rfl, rfl⟩
  · exact (read_only c q o o' hs (ho _ hd)).symm
  · exact (read_only c q o o' hs (by rw [hn]; trivial)).symm
  · simp only [setattr, show property .optiongroup (name .enabled) = some ⟨_, some _⟩ from rfl] at h
    cases h
    simp [getattr, show property .optiongroup (name .buttoncount) = some ⟨_, some _⟩ from rfl]

/-- Assigning the width of a form leaves its caption. -/
example (o o' : Obj) (h : setattr .form "width" (.int 300) o = .ok o') : getattr .form "caption" o' = getattr .form "caption" o :=
  C121_others_partial .form .width .caption (by decide) rfl (.int 300) o o' h

/-- In five classes the width reads as the height, whatever is assigned to either. -/
theorem C121_width_fails (c : Class) (hc : c = .form ∨ c = .commandbutton ∨ c = .label ∨ c = .combobox ∨ c = .shape) :
    (∀ o, getattr c "width" o = getattr c "height" o) ∧
    (∀ (n : Int) (o : Obj), 0 ≤ n → n ≤ 16777215 →
      (setattr c "height" (.int n) o).bind (getattr c "width") = .ok (.int n) ∧
      (setattr c "width" (.int n) o).bind (getattr c "width") = getattr c "height" o) := by
  have hw : property c "width" = some ⟨Model.Controls.read .height, some (putSize .width)⟩ := by
    rcases hc with rfl | rfl | rfl | rfl | rfl <;> rfl
  have hh : property c "height" = some ⟨Model.Controls.read .height, some (putSize .height)⟩ := by
    rcases hc with rfl | rfl | rfl | rfl | rfl <;> rfl
  refine ⟨fun o => by simp only [getattr, hw, hh], fun n o h0 h1 => ?_⟩
  have hn : max 0 (min 16777215 n) = n := by omega
  simp [setattr, getattr, hw, hh, putSize, Except.bind, Model.Controls.read, Obj.put, hn]

/-- A height outside Qt's limits reads back as the limit. -/
theorem C121_limits_fails (c : Class) (hc : c = .mainWindow ∨ c = .form ∨ c = .commandbutton ∨ c = .label ∨ c = .textbox ∨
    c = .checkbox ∨ c = .combobox ∨ c = .shape) (n : Int) (o : Obj) :
    (n < 0 → (setattr c "height" (.int n) o).bind (getattr c "height") = .ok (.int 0)) ∧
    (16777215 < n → (setattr c "height" (.int n) o).bind (getattr c "height") = .ok (.int 16777215)) := by
  have hh : property c "height" = some ⟨Model.Controls.read .height, some (putSize .height)⟩ := by
    rcases hc with rfl | rfl | rfl | rfl | rfl | rfl | rfl | rfl <;> rfl
  constructor <;> intro hn
  · have e : max 0 (min 16777215 n) = 0 := by omega
    simp [setattr, getattr, hh, putSize, Except.bind, Model.Controls.read, Obj.put, e]
  · have e : max 0 (min 16777215 n) = 16777215 := by omega
    simp [setattr, getattr, hh, putSize, Except.bind, Model.Controls.read, Obj.put, e]

example (o : Obj) : (setattr .label "height" (.int (-1)) o).bind (getattr .label "height") = .ok (.int 0) :=
  (C121_limits_fails .label (by simp) (-1) o).1 (by decide)

/-- A form of height 200 whose width is set to 300 says that it is 200 wide. -/
example (o : Obj) : ((setattr .form "height" (.int 200) o).bind (setattr .form "width" (.int 300))).bind (getattr .form "width") =
    .ok (.int 200) := by
  have h := (C121_width_fails .form (.inl rfl)).2 300
    ((o.put .height (.int 200))) (by decide) (by decide)
  simp only [show setattr .form "height" (.int 200) o = .ok (o.put .height (.int 200)) from rfl, Except.bind]
  exact h.2

/-- Properties of FoxPro's controls that the widget is not told about. -/
def ControlsSpec.Silent : Class → Property → Prop
  | _, .left | _, .top => True
  | .mainWindow, .width | .textbox, .width | .checkbox, .width | .spinner, .width | .listbox, .width | .grid, .width
  | .optionbutton, .width | .optiongroup, .width => True
  | .spinner, .height | .listbox, .height | .grid, .height | .optionbutton, .height | .optiongroup, .height => True
  | .form, .enabled | .label, .enabled | .textbox, .enabled | .checkbox, .enabled | .combobox, .enabled | .spinner, .enabled
  | .shape, .enabled | .listbox, .enabled | .grid, .enabled => True
  | .form, .visible | .label, .visible | .checkbox, .visible | .combobox, .visible | .spinner, .visible | .shape, .visible
  | .listbox, .visible | .grid, .visible | .optionbutton, .visible | .optiongroup, .visible => True
  | .checkbox, .value | .listbox, .value | .optiongroup, .value => True
  | _, _ => False

/-- Positions, and in many classes the size, the state and the value, are attributes of the Python object
only: no assignment reaches the widget. -/
theorem C121_silent_fails (c : Class) (p : Property) (hp : ControlsSpec.Silent c p) (v : Val) (o : Obj) :
    ∃ o', setattr c (name p) v o = .ok o' ∧ o'.qt = o.qt ∧ o'.index = o.index ∧ o'.buttons = o.buttons := by
  have h : property c (name p) = none := by
    cases p <;> cases c <;> first | rfl | exact hp.elim
  exact ⟨{ o with attrs := Py.Dict.set o.attrs (name p) v }, by simp only [setattr, h], rfl, rfl, rfl⟩

/-- A text box cannot be disabled. -/
example (o : Obj) : ∃ o', setattr .textbox "enabled" (.bool false) o = .ok o' ∧ o'.qt = o.qt ∧ o'.index = o.index ∧
    o'.buttons = o.buttons := C121_silent_fails .textbox .enabled trivial (.bool false) o

/-- Reading `fontunderline` raises an error in every control with a font. -/
theorem C121_underline_fails (c : Class) (hc : c ≠ .mainWindow ∧ c ≠ .shape ∧ c ≠ .listbox ∧ c ≠ .optiongroup) (o : Obj) :
    getattr c "fontunderline" o = .error .attributeError := by
  obtain ⟨h1, h2, h3, h4⟩ := hc
  have h : property c "fontunderline" = some ⟨fun _ => .error .attributeError, some (putBool .underline)⟩ := by
    cases c <;> first | rfl | contradiction
  simp only [getattr, h]

example (o : Obj) : getattr .label "fontunderline" o = .error .attributeError := C121_underline_fails .label (by decide) o

/-- A grid says the opposite of what was assigned to `AllowCellSelection`. -/
theorem C121_cells_fails (b : Bool) (o : Obj) :
    (setattr .grid "allowcellselection" (.bool b) o).bind (getattr .grid "allowcellselection") = .ok (.bool !b) := by
  have h := readback_prop (c := .grid) (x := "allowcellselection") rfl (.bool b) o
  simp only [readback] at h
  rw [h]
  simp [Except.bind, Obj.put, asBool]

example (o : Obj) : (setattr .grid "allowcellselection" (.bool true) o).bind (getattr .grid "allowcellselection") = .ok (.bool false) :=
  C121_cells_fails true o

/-- A disabled option group that gets another button says that it is enabled. -/
theorem C121_group_fails (n : Int) (o : Obj) (hp : o.parentEnabled = true) (hn : (o.buttons.length : Int) < n) :
    (((setattr .optiongroup "enabled" (.bool false) o).bind (setattr .optiongroup "buttoncount" (.int n))).bind
      (getattr .optiongroup "enabled")) = .ok (.bool true) := by
  have h1 : setattr .optiongroup "enabled" (.bool false) o = .ok { o with buttons := o.buttons.map fun _ => false } := rfl
  rw [h1]
  have h2 : ∀ o', setattr .optiongroup "buttoncount" (.int n) o' = setCount (.int n) o' := fun _ => rfl
  have h3 : ∀ o', getattr .optiongroup "enabled" o' = .ok (.bool (o'.buttons.any id && o'.parentEnabled)) := fun _ => rfl
  simp only [Except.bind, h2, setCount, h3, hp, List.any_append, List.length_map]
  have : n.toNat - o.buttons.length ≠ 0 := by omega
  obtain ⟨k, hk⟩ := Nat.exists_eq_succ_of_ne_zero this
  simp [hk, List.replicate_succ]

/-- Two buttons, then three. -/
example (o : Obj) (hp : o.parentEnabled = true) (hb : o.buttons = [true, true]) :
    (((setattr .optiongroup "enabled" (.bool false) o).bind (setattr .optiongroup "buttoncount" (.int 3))).bind
      (getattr .optiongroup "enabled")) = .ok (.bool true) := C121_group_fails 3 o hp (by rw [hb]; decide)

end Props
