import Verif.Model.Creation
/-!
# C127: creating an object
-/
namespace Props
open Model.Creation

namespace CreationSpec

/-- The statements of a class body. -/
inductive Stmt where
  | prop (x : Name) (v : Int)
  | add (n : Name) (c : Cls) (kw : List (Name × Int))

def bodyStmts : Body → List Stmt
  | .nil => []
  | .prop x v rest => .prop x v :: bodyStmts rest
  | .add n c kw rest => .add n c kw :: bodyStmts rest

/-- All statements of a class and its superclasses, those of the superclass first. -/
def stmts : Cls → List Stmt
  | .lib _ _ => []
  | .sub b body _ => stmts b ++ bodyStmts body

/-- What a statement gives to a property. -/
def gives (x : Name) : Stmt → Option Val
  | .prop y v => if x = y then some (.num v) else none
  | .add n _ _ => if x = n then some .object else none

/-- What the last of the statements about a property gives. -/
def last (x : Name) (l : List Stmt) : Option Val := l.reverse.findSome? (gives x)

/-- What the last of the clauses `x = v` behind WITH gives. -/
def lastWith (x : Name) (kw : List (Name × Int)) : Option Val :=
  kw.reverse.findSome? fun p => if x = p.1 then some (.num p.2) else none

/-- A class and its superclasses up to the library. -/
def chain : Cls → List Cls
  | .lib f a => [.lib f a]
  | .sub b body i => .sub b body i :: chain b

def ownInit : Cls → Option Init
  | .lib _ _ => none
  | .sub _ _ i => i

def library : Cls → Option (Bool × Attrs)
  | .lib f a => some (f, a)
  | .sub _ _ _ => none

/-- The nearest INIT; without any, the object stays as it is. -/
def initMethod (c : Cls) : Init := ((chain c).findSome? ownInit).getD fun _ a => (a, true)

/-- The properties that objects of the library class have. -/
def inherent (c : Cls) : Attrs := (((chain c).findSome? library).map Prod.snd).getD fun _ => none

/-- A class made from a form of the library is a form. -/
def isForm (c : Cls) : Bool := (((chain c).findSome? library).map Prod.fst).getD false

/-- The properties of an object before its INIT: the WITH clause, else the class, else the library. -/
def properties (c : Cls) (kw : List (Name × Int)) : Attrs :=
  fun x => (lastWith x kw).or ((last x (stmts c)).or (inherent c x))

/-- The INIT of an object. -/
def initOf (around : List Frame) (path : Path) (c : Cls) (kw : List (Name × Int)) (member : Bool) (args : List Int) : Event :=
  { path := path, before := properties c kw, after := ((initMethod c) args (properties c kw)).1, ret := ((initMethod c) args (properties c kw)).2
    self := ⟨properties c kw, isForm c, member⟩, around := around }

mutual
/-- FoxPro makes all objects with all their properties, and then runs the INIT methods: those of the members before that of the
object, in the order of the statements. -/
def members (around : List Frame) (path : Path) : Cls → List Event
  | .lib _ _ => []
  | .sub b body _ => members around path b ++ bodyMembers around path body
def bodyMembers (around : List Frame) (path : Path) : Body → List Event
  | .nil => []
  | .prop _ _ rest => bodyMembers around path rest
  | .add n c kw rest =>
    members (⟨properties c kw, isForm c, true⟩ :: around) (path ++ [n]) c ++
      [initOf around (path ++ [n]) c kw true []] ++ bodyMembers around path rest
end

def fox (c : Cls) (args : List Int) : List Event :=
  members [⟨properties c [], isForm c, false⟩] [] c ++ [initOf [] [] c [] false args]

/-- An object whose INIT returns .F. is not made. -/
def foxCreated (c : Cls) (args : List Int) : Option Attrs :=
  let r := (initMethod c) args (properties c [])
  if r.2 then some r.1 else none

/-- An event without the properties of the objects around. -/
def own (e : Event) : Path × Attrs × Attrs × Bool × Frame × List Bool :=
  (e.path, e.before, e.after, e.ret, e.self, e.around.map Frame.form)

/-- The number of steps to the nearest form. -/
def nearest : List Bool → Option Nat
  | [] => none
  | true :: _ => some 0
  | false :: l => (nearest l).map (· + 1)

end CreationSpec
open CreationSpec

namespace CreationAux

theorem init_eq : ∀ c : Cls, initMethod c = c.init
  | .lib _ _ => rfl
  | .sub _ _ (some _) => rfl
  | .sub b _ none => init_eq b

theorem start_eq : ∀ c : Cls, inherent c = c.start
  | .lib _ _ => rfl
  | .sub b _ _ => start_eq b

theorem form_eq : ∀ c : Cls, isForm c = c.form
  | .lib _ _ => rfl
  | .sub b _ _ => form_eq b

/-- One statement. -/
def put (a : Attrs) : Stmt → Attrs
  | .prop x v => a.set x (.num v)
  | .add n _ _ => a.set n .object

theorem put_get (a : Attrs) (s : Stmt) (x : Name) : put a s x = (gives x s).or (a x) := by
  cases s <;> simp only [put, gives, Attrs.set] <;> split <;> simp

theorem last_cons (x : Name) (s : Stmt) (l : List Stmt) : last x (s :: l) = (last x l).or (gives x s) := by
  simp [last, List.findSome?_append, List.findSome?_cons]
  cases gives x s <;> simp

theorem puts_get : ∀ (l : List Stmt) (a : Attrs) (x : Name), l.foldl put a x = (last x l).or (a x)
  | [], a, x => by simp [last]
  | s :: l, a, x => by
    rw [List.foldl_cons, puts_get l, put_get, last_cons, Option.or_assoc]

theorem setAll_get : ∀ (kw : List (Name × Int)) (a : Attrs) (x : Name), a.setAll kw x = (lastWith x kw).or (a x)
  | [], a, x => by simp [Attrs.setAll, lastWith]
  | p :: kw, a, x => by
    have : a.setAll (p :: kw) = (a.set p.1 (.num p.2)).setAll kw := rfl
    rw [this, setAll_get kw]
    simp only [lastWith, List.reverse_cons, List.findSome?_append, List.findSome?_cons, List.findSome?_nil, Attrs.set]
    rw [Option.or_assoc]
    by_cases h : x = p.1 <;> simp [h]

/-- The properties when `_assign` has run and the keywords are set. -/
theorem full (c : Cls) (kw : List (Name × Int)) : ((stmts c).foldl put c.start).setAll kw = properties c kw := by
  funext x
  rw [setAll_get, puts_get]
  simp only [properties, start_eq]

theorem finish_own (around around' : List Frame) (h : around.map Frame.form = around'.map Frame.form) (path : Path) (c : Cls)
    (kw : List (Name × Int)) (member : Bool) (args : List Int) :
    own (finish around path c kw member args ((stmts c).foldl put c.start)) = own (initOf around' path c kw member args) := by
  simp only [own, finish, initOf, full, h, init_eq, form_eq]

mutual
theorem assign_fst (around : List Frame) (path : Path) (form : Bool) : ∀ (c : Cls) (a : Attrs),
    (assign around path form c a).1 = (stmts c).foldl put a
  | .lib _ _, a => by simp [assign, stmts]
  | .sub b body _, a => by
    simp only [assign, stmts, List.foldl_append]
    rw [assignBody_fst around path form body, assign_fst around path form b]
theorem assignBody_fst (around : List Frame) (path : Path) (form : Bool) : ∀ (b : Body) (a : Attrs),
    (assignBody around path form b a).1 = (bodyStmts b).foldl put a
  | .nil, a => by simp [assignBody, bodyStmts]
  | .prop x v rest, a => by
    simp only [assignBody, bodyStmts, List.foldl_cons]
    rw [assignBody_fst around path form rest]; rfl
  | .add n c kw rest, a => by
    simp only [assignBody, bodyStmts, List.foldl_cons]
    rw [assignBody_fst around path form rest]; rfl
end

mutual
theorem assign_own (form : Bool) : ∀ (c : Cls) (around : List Frame) (owner : Frame) (around' : List Frame) (path : Path) (a : Attrs),
    owner.form = form → around.map Frame.form = around'.map Frame.form →
    (assign around path form c a).2.map own = (members (owner :: around') path c).map own
  | .lib _ _, _, _, _, _, _, _, _ => by simp [assign, members]
  | .sub b body _, around, owner, around', path, a, ho, h => by
    simp only [assign, members, List.map_append]
    rw [assign_own form b around owner around' path a ho h, assignBody_own form body around owner around' path _ ho h]
theorem assignBody_own (form : Bool) : ∀ (b : Body) (around : List Frame) (owner : Frame) (around' : List Frame) (path : Path) (a : Attrs),
    owner.form = form → around.map Frame.form = around'.map Frame.form →
    (assignBody around path form b a).2.map own = (bodyMembers (owner :: around') path b).map own
  | .nil, _, _, _, _, _, _, _ => by simp [assignBody, bodyMembers]
  | .prop x v rest, around, owner, around', path, a, ho, h => by
    simp only [assignBody, bodyMembers]
    exact assignBody_own form rest around owner around' path _ ho h
  | .add n c kw rest, around, owner, around', path, a, ho, h => by
    have hi : (⟨a, form, false⟩ :: around : List Frame).map Frame.form = (owner :: around').map Frame.form := by simp [ho, h]
    simp only [assignBody, bodyMembers, form_eq, List.map_append, List.map_cons, List.map_nil]
    rw [assignBody_own form rest around owner around' path _ ho h,
      assign_own c.form c (⟨a, form, false⟩ :: around) ⟨properties c kw, c.form, true⟩ (owner :: around') (path ++ [n]) c.start rfl hi,
      assign_fst, finish_own _ _ hi]
end

mutual
theorem assign_unlinked (form : Bool) : ∀ (c : Cls) (around : List Frame) (path : Path) (a : Attrs), (∀ f ∈ around, f.linked = false) →
    ∀ e ∈ (assign around path form c a).2, e.self.linked = true ∧ e.around ≠ [] ∧ ∀ f ∈ e.around, f.linked = false
  | .lib _ _, _, _, _, _ => by simp [assign]
  | .sub b body _, around, path, a, h => by
    intro e he
    simp only [assign, List.mem_append] at he
    rcases he with he | he
    · exact assign_unlinked form b around path a h e he
    · exact assignBody_unlinked form body around path _ h e he
theorem assignBody_unlinked (form : Bool) : ∀ (b : Body) (around : List Frame) (path : Path) (a : Attrs), (∀ f ∈ around, f.linked = false) →
    ∀ e ∈ (assignBody around path form b a).2, e.self.linked = true ∧ e.around ≠ [] ∧ ∀ f ∈ e.around, f.linked = false
  | .nil, _, _, _, _ => by simp [assignBody]
  | .prop _ _ rest, around, path, a, h => by
    simp only [assignBody]
    exact assignBody_unlinked form rest around path _ h
  | .add n c kw rest, around, path, a, h => by
    have hi : ∀ f ∈ (⟨a, form, false⟩ :: around : List Frame), f.linked = false := by
      intro f hf
      rcases List.mem_cons.mp hf with rfl | hf
      · rfl
      · exact h f hf
    intro e he
    simp only [assignBody, List.mem_append, List.mem_singleton] at he
    rcases he with (he | rfl) | he
    · exact assign_unlinked c.form c _ _ _ hi e he
    · exact ⟨rfl, by simp [finish], hi⟩
    · exact assignBody_unlinked form rest around path _ h e he
end

/-- The events of the members of one statement. -/
theorem at_add (around : List Frame) (path : Path) (form : Bool) (n : Name) (m : Cls) (kw : List (Name × Int)) :
    ∀ (b : Body) (pre post : List Stmt) (a : Attrs), bodyStmts b = pre ++ .add n m kw :: post →
    ∃ l l' e, (assignBody around path form b a).2 = l ++ e :: l' ∧ e.path = path ++ [n] ∧ e.around = ⟨pre.foldl put a, form, false⟩ :: around
  | .nil, pre, post, a, h => by cases pre <;> simp [bodyStmts] at h
  | .prop x v rest, pre, post, a, h => by
    cases pre with
    | nil => simp [bodyStmts] at h
    | cons s pre =>
      simp only [bodyStmts, List.cons_append, List.cons.injEq] at h
      obtain ⟨rfl, h⟩ := h
      exact at_add around path form n m kw rest pre post _ h
  | .add n' c' kw' rest, pre, post, a, h => by
    cases pre with
    | nil =>
      simp only [bodyStmts, List.nil_append, List.cons.injEq, Stmt.add.injEq] at h
      obtain ⟨⟨rfl, rfl, rfl⟩, h⟩ := h
      simp only [assignBody, List.append_assoc, List.singleton_append]
      exact ⟨_, _, _, rfl, rfl, rfl⟩
    | cons s pre =>
      simp only [bodyStmts, List.cons_append, List.cons.injEq] at h
      obtain ⟨rfl, h⟩ := h
      obtain ⟨l, l', e, h1, h2, h3⟩ := at_add around path form n m kw rest pre post (a.set n' .object) h
      simp only [assignBody, h1]
      refine ⟨_ ++ l, l', e, (List.append_assoc _ _ _).symm, h2, h3⟩

theorem at_stmt (around : List Frame) (path : Path) (form : Bool) (n : Name) (m : Cls) (kw : List (Name × Int)) :
    ∀ (c : Cls) (pre post : List Stmt) (a : Attrs), stmts c = pre ++ .add n m kw :: post →
    ∃ l l' e, (assign around path form c a).2 = l ++ e :: l' ∧ e.path = path ++ [n] ∧ e.around = ⟨pre.foldl put a, form, false⟩ :: around
  | .lib _ _, pre, post, a, h => by cases pre <;> simp [stmts] at h
  | .sub b body _, pre, post, a, h => by
    simp only [stmts] at h
    rcases List.append_eq_append_iff.mp h with ⟨as, h1, h2⟩ | ⟨bs, h1, h2⟩
    · obtain ⟨l, l', e, e1, e2, e3⟩ := at_add around path form n m kw body as post ((stmts b).foldl put a) h2
      refine ⟨(assign around path form b a).2 ++ l, l', e, ?_, e2, ?_⟩
      · simp only [assign, assign_fst, e1, List.append_assoc]
      · rw [e3, h1, List.foldl_append]
    · cases bs with
      | nil =>
        have h2' : bodyStmts body = [] ++ .add n m kw :: post := by simpa using h2.symm
        obtain ⟨l, l', e, e1, e2, e3⟩ := at_add around path form n m kw body [] post ((stmts b).foldl put a) h2'
        refine ⟨(assign around path form b a).2 ++ l, l', e, ?_, e2, ?_⟩
        · simp only [assign, assign_fst, e1, List.append_assoc]
        · rw [e3, h1, List.append_nil]; rfl
      | cons s bs =>
        simp only [List.cons_append, List.cons.injEq] at h2
        obtain ⟨rfl, h2⟩ := h2
        obtain ⟨l, l', e, e1, e2, e3⟩ := at_stmt around path form n m kw b pre bs a h1
        refine ⟨l, l' ++ (assignBody around path form body (assign around path form b a).1).2, e, ?_, e2, e3⟩
        simp only [assign, e1, List.append_assoc, List.cons_append]

end CreationAux
open CreationAux

/-- C127: with PySide, the objects made for an object and its members, at any depth, are those of FoxPro, with the same properties
before and after their INIT methods, and the INIT methods run in the same order.  Missing: what an INIT sees of the objects around its
own (`C127_parent_iff`, `C127_thisform_iff`), INIT methods that return .F. (`C127_refused_iff`). -/
theorem C127_objects_partial (c : Cls) (args : List Int) : (create c args).map own = (fox c args).map own := by
  simp only [create, fox, form_eq, List.map_append, List.map_cons, List.map_nil]
  rw [assign_own c.form c [] ⟨properties c [], c.form, false⟩ [] [] c.start rfl rfl, assign_fst, finish_own [] [] rfl]

namespace CreationDemo
/-- A text box; its INIT doubles WIDTH. -/
def box : Cls := .sub (.lib false fun x => if x = "width" then some (.num 100) else none) (.prop "width" 80 .nil)
  (some fun _ a => (fun x => if x = "width" then (match a x with | some (.num n) => some (.num (2 * n)) | v => v) else a x, true))
/-- A container with a text box. -/
def panel : Cls := .sub (.lib false fun _ => none) (.add "name1" box [("width", 60)] .nil) none
/-- A form with a container; RATE comes after it. -/
def form : Cls := .sub (.lib true fun _ => none) (.prop "rate" 3 (.add "panel" panel [] (.add "total" box [] (.prop "rate" 5 .nil)))) none
/-- A form made from that form. -/
def form2 : Cls := .sub form (.prop "rate" 7 .nil) (some fun args a => (a, decide (args ≠ [0])))
end CreationDemo

open CreationDemo in
example : (create form2 [1]).map (fun e => (e.path, e.after "width", e.after "rate")) =
    [(["panel", "name1"], some (.num 120), none), (["panel"], none, none), (["total"], some (.num 160), none), ([], none, some (.num 7))] := by
  decide +kernel

/-- C127, exactly: the INIT of a member sees a property of the object that contains it with its final value exactly if the statements
from its own ADD OBJECT on do not give the property another value. -/
theorem C127_parent_iff (c : Cls) (args : List Int) (pre post : List Stmt) (n : Name) (m : Cls) (kw : List (Name × Int))
    (h : stmts c = pre ++ .add n m kw :: post) :
    ∃ l l' e f, create c args = l ++ e :: l' ∧ e.path = [n] ∧ e.around = [f] ∧
      ∀ x, f.attrs x = properties c [] x ↔ (last x (.add n m kw :: post) = none ∨ last x (.add n m kw :: post) = (last x pre).or (inherent c x)) := by
  rw [start_eq]
  obtain ⟨l, l', e, e1, e2, e3⟩ := at_stmt [] [] c.form n m kw c pre post c.start h
  refine ⟨l, l' ++ [finish [] [] c [] false args (assign [] [] c.form c c.start).1], e, _, ?_, by simpa using e2, e3, ?_⟩
  · simp only [create, e1, List.append_assoc, List.cons_append]
  · intro x
    show pre.foldl put c.start x = _ ↔ _
    have hp : properties c [] x = (last x (.add n m kw :: post)).or ((last x pre).or (c.start x)) := by
      rw [← full, setAll_get, puts_get, h]
      simp only [lastWith, List.reverse_nil, List.findSome?_nil, Option.none_or]
      rw [← Option.or_assoc]
      congr 1
      have : ∀ l l' : List Stmt, last x (l ++ l') = (last x l').or (last x l) := by
        intro l l'; simp [last, List.findSome?_append]
      exact this _ _
    rw [puts_get, hp]
    cases hl : last x (.add n m kw :: post) with
    | none => simp
    | some v => simp [eq_comm]

open CreationDemo in
/-- The text box sees 3 for RATE, which the form sets to 5 and the form made from it to 7. -/
example : (create form2 [1]).map (fun e => e.around.map fun f => f.attrs "rate") = [[none, some (.num 3)], [some (.num 3)], [some (.num 3)], []] ∧
    (fox form2 [1]).map (fun e => e.around.map fun f => f.attrs "rate") = [[none, some (.num 7)], [some (.num 7)], [some (.num 7)], []] := by
  decide +kernel

/-- C127, exactly: THISFORM in an INIT method is the nearest form around the object exactly if that is the object itself or the object
that contains it, or if there is none at all (an error in FoxPro too). -/
theorem C127_thisform_iff (c : Cls) (args : List Int) (e : Event) (he : e ∈ create c args) :
    parentform e.self e.around = nearest (e.self.form :: e.around.map Frame.form) ↔
      nearest (e.self.form :: e.around.map Frame.form) ∈ [none, some 0, some 1] := by
  have key : (e.around = [] ∨ e.self.linked = true) ∧ ∀ f ∈ e.around, f.linked = false := by
    simp only [create, List.mem_append, List.mem_singleton] at he
    rcases he with he | rfl
    · have := assign_unlinked c.form c [] [] c.start (by simp) e he
      exact ⟨Or.inr this.1, this.2.2⟩
    · exact ⟨Or.inl rfl, by simp [finish]⟩
  obtain ⟨k1, k2⟩ := key
  generalize e.self = s, e.around = fs at k1 k2
  cases hs : s.form with
  | true => cases fs <;> simp [parentform, nearest, hs]
  | false =>
    cases fs with
    | nil => simp [parentform, nearest, hs]
    | cons f fs =>
      have hl : s.linked = true := by simpa using k1
      have hf : f.linked = false := k2 f List.mem_cons_self
      have step : parentform f fs = if f.form then some 0 else none := by cases fs <;> simp [parentform, hf]
      simp only [parentform, hs, hl, step, List.map_cons, nearest]
      cases hff : f.form with
      | true => simp [nearest]
      | false =>
        simp only [nearest]
        cases nearest (fs.map Frame.form) <;> simp

open CreationDemo in
/-- THISFORM in the INIT of the text box in the container is an error. -/
example : (create form2 [1]).map (fun e => (parentform e.self e.around, nearest (e.self.form :: e.around.map Frame.form))) =
    [(none, some 2), (some 1, some 1), (some 1, some 1), (some 0, some 0)] := by
  decide +kernel

/-- C127, exactly: the object is made as in FoxPro exactly if its INIT does not return .F.; if it does, there is an object all the same. -/
theorem C127_refused_iff (c : Cls) (args : List Int) :
    created c args = foxCreated c args ↔ (initMethod c args (properties c [])).2 = true := by
  rw [init_eq]
  have : created c args = some (c.init args (properties c [])).1 := by
    simp only [created, create, List.getLast?_append, List.getLast?_singleton, Option.some_or, Option.map_some, finish, assign_fst, full]
  rw [this]
  unfold foxCreated
  rw [init_eq]
  cases h : (c.init args (properties c [])).2 <;> simp [h]

open CreationDemo in
example : (created form2 [0]).isSome = true ∧ (foxCreated form2 [0]).isSome = false ∧ (created form2 [1]).map (· "rate") = some (some (.num 7)) := by
  decide +kernel

/-- C127: without PySide no object has the properties that its class gives it, no INIT runs and there are no arguments. -/
theorem C127_plain_fails (c : Cls) (args : List Int) (x : Name) (v : Val) (hx : last x (stmts c) = some v) :
    (args = [] → ∃ a, createPlain c args = some (a, []) ∧ a x = none ∧ (fox c args) ≠ [] ∧ properties c [] x = some v) ∧
    (args ≠ [] → createPlain c args = none) := by
  constructor
  · intro h
    refine ⟨fun _ => none, by simp [createPlain, h], rfl, by simp [fox], ?_⟩
    simp [properties, lastWith, hx]
  · intro h
    simp [createPlain, h]

open CreationDemo in
example : last "rate" (stmts form2) = some (.num 7) := by decide +kernel

end Props
