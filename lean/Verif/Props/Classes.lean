import Verif.Model.Classes
/-!
# Class definitions (C73-C76)
-/
namespace Props
open Model.Classes Py

/-! ## Specification -/

namespace ClassSpec

/-- The properties that the class body initialises, in order, with the value as it reads in a
method of the class. -/
def properties : List Member → List (Name × String)
  | [] => []
  | .assign [x] v :: ms => (x, v.code true) :: properties ms
  | .array x code :: ms => (x, code) :: properties ms
  | _ :: ms => properties ms

/-- The same, when only values without a member access count. -/
def plainProperties : List Member → List (Name × String)
  | [] => []
  | .assign [x] v :: ms => if v.member then plainProperties ms else (x, v.code true) :: plainProperties ms
  | _ :: ms => plainProperties ms

/-- The property statements among those executed for a new object. -/
def props : List Init → List (Name × String)
  | [] => []
  | .prop x v :: is => (x, v) :: props is
  | _ :: is => props is

/-- The values given to a property in a list of settings: the last one counts. -/
def lastFor (x : Name) : List (Name × String) → Option String
  | [] => none
  | (y, v) :: t => (lastFor x t).or (if y = x then some v else none)

/-- The first line that is not a comment. -/
def firstLine : List Line → Option Line
  | [] => none
  | .comment _ :: ls => firstLine ls
  | l :: _ => some l

/-- The parameters that a method declares, in its header or in a parameter statement on its first
line, and whether they are local. -/
def declared (m : Method) : Bool × List Name :=
  if m.header = [] then
    match firstLine m.lines with
    | some (.parameters b ns) => (b, ns)
    | _ => (true, [])
  else (true, m.header)

/-- The lines of a method other than parameter statements. -/
def executed : List Line → List Line
  | [] => []
  | .parameters _ _ :: ls => executed ls
  | l :: ls => l :: executed ls

/-- What the generated method must be. -/
def faithful (m : Method) : MethodCode := ⟨(declared m).1, (declared m).2, executed m.lines⟩

/-- The last definition of a method. -/
def lastMethod (name : Path) (ms : List Member) : Option Method :=
  (ms.filterMap fun | .method m => some m | _ => none).reverse.find? (·.name = name)

/-- The method has its parameters in a statement. -/
def ParameterStatement (m : Method) : Prop := m.header = [] ∧ ∃ b ns, firstLine m.lines = some (.parameters b ns)

/-- The number of objects added. -/
def objects : List Member → Nat
  | [] => 0
  | .addObject _ _ _ :: ms => objects ms + 1
  | _ :: ms => objects ms

end ClassSpec
open ClassSpec

namespace ClassAux

theorem props_append (a b : List Init) : props (a ++ b) = props a ++ props b := by
  induction a with
  | nil => rfl
  | cons i t ih => cases i <;> simp [props, ih]

theorem classAssign_one (x : Name) (v : Value) :
    visitClassAssign [x] v = (if v.member then scopeId true x else [x], v.code true) := by
  simp only [visitClassAssign, visitAssign, visitTarget, flagAfter]
  cases v.member <;> simp [scopeId]

theorem scopeId_true (x : Name) : ∃ a b t, scopeId true x = a :: b :: t ∨ scopeId true x = ["self"] := by
  unfold scopeId
  by_cases h1 : x = "this"
  · exact ⟨"", "", [], .inr (by simp [h1])⟩
  · by_cases h2 : x = "thisform"
    · exact ⟨"self", "parentform", [], .inl (by simp [h2])⟩
    · exact ⟨"S", x, [], .inl (by simp [h1, h2])⟩

theorem classAssign_dotted (x y : Name) (t : Path) (v : Value) :
    (visitClassAssign (x :: y :: t) v).1 = scopeId true x ++ y :: t := by
  simp only [visitClassAssign, visitAssign, visitTarget, flagAfter]
  cases v.member <;> simp

/-- The head of the path of a dotted target is never the name of an object. -/
theorem scopeId_head (x : Name) : ∃ h t, scopeId true x = h :: t ∧ (h = "S" ∨ h = "self") := by
  unfold scopeId
  by_cases h1 : x = "this"
  · exact ⟨"self", [], by simp [h1], .inr rfl⟩
  · by_cases h2 : x = "thisform"
    · exact ⟨"self", ["parentform"], by simp [h2], .inr rfl⟩
    · exact ⟨"S", [x], by simp [h1, h2], .inl rfl⟩

theorem addAssign_id (name : Name) (hS : name ≠ "S") (hs : name ≠ "self") (args : Dict Name String) (t : Path) (v : Value) :
    addAssign name args (visitClassAssign t v) = args := by
  match t with
  | [] => simp [visitClassAssign, visitAssign, visitTarget, addAssign]
  | [x] =>
    rw [classAssign_one]
    cases v.member with
    | false => simp [addAssign]
    | true =>
      obtain ⟨h, r, e, hh⟩ := scopeId_head x
      simp only [if_true, e]
      have : h ≠ name := by rcases hh with rfl | rfl <;> simp_all [eq_comm]
      cases r <;> simp [addAssign, this]
  | x :: y :: r =>
    have e := classAssign_dotted x y r v
    obtain ⟨h, r', e', hh⟩ := scopeId_head x
    rw [e'] at e
    have : h ≠ name := by rcases hh with rfl | rfl <;> simp_all [eq_comm]
    unfold addAssign
    rw [e]
    cases r' <;> simp [this]

theorem foldAssign_id (name : Name) (hS : name ≠ "S") (hs : name ≠ "self") (ms : List Member) (args : Dict Name String) :
    (assignsOf ms).foldl (addAssign name) args = args := by
  induction ms with
  | nil => rfl
  | cons m t ih =>
    cases m <;> simp [assignsOf, ih, addAssign_id name hS hs]

/-! ### Properties -/

theorem memberStep_props (as : List (Path × String)) (s : LoopState) (m : Member) (hthis : ∀ v, m ≠ .assign ["this"] v) :
    props (memberStep as s m).inits = props s.inits ++ plainProperties [m] := by
  cases m with
  | comment t => simp [memberStep, props_append, props, plainProperties]
  | addObject n ty w =>
    simp only [memberStep, addObjectStep]
    split <;> simp [props_append, props, plainProperties]
  | array x c => simp [memberStep, plainProperties]
  | method m => simp [memberStep, plainProperties]
  | assign t v =>
    match t with
    | [] => simp [memberStep, visitClassAssign, visitAssign, visitTarget, plainProperties]
    | [x] =>
      simp only [memberStep, classAssign_one, plainProperties]
      cases hv : v.member with
      | false => simp [props_append, props]
      | true =>
        have hx : x ≠ "this" := fun e => hthis v (by rw [e])
        obtain ⟨a, b, r, h⟩ := scopeId_true x
        have h : scopeId true x = a :: b :: r := by
          rcases h with h | h
          · exact h
          · simp [scopeId, hx] at h
            split at h <;> simp_all
        simp [h]
    | x :: y :: r =>
      have e := classAssign_dotted x y r v
      simp only [memberStep, plainProperties]
      obtain ⟨h, r', e', _⟩ := scopeId_head x
      rw [e'] at e
      split
      · rename_i z c hz
        rw [hz] at e
        cases r' <;> simp at e
      · simp

theorem fold_props (as : List (Path × String)) (ms : List Member) (s : LoopState)
    (hthis : ∀ v, .assign ["this"] v ∉ ms) :
    props (ms.foldl (memberStep as) s).inits = props s.inits ++ plainProperties ms := by
  induction ms generalizing s with
  | nil => simp [plainProperties]
  | cons m t ih =>
    rw [List.foldl_cons, ih _ fun v h => hthis v (List.mem_cons_of_mem _ h),
      memberStep_props as s m fun v e => hthis v (by simp [e])]
    have : plainProperties (m :: t) = plainProperties [m] ++ plainProperties t := by
      cases m with
      | assign p v =>
        match p with
        | [] => simp [plainProperties]
        | [x] => simp only [plainProperties]; cases v.member <;> simp
        | _ :: _ :: _ => simp [plainProperties]
      | _ => simp [plainProperties]
    rw [this, List.append_assoc]

theorem plain_eq (ms : List Member) (h : ∀ t v, .assign t v ∈ ms → v.member = false)
    (ha : ∀ x c, .array x c ∉ ms) : plainProperties ms = properties ms := by
  induction ms with
  | nil => rfl
  | cons m t ih =>
    have ih := ih (fun t' v hm => h t' v (List.mem_cons_of_mem _ hm)) fun x c hm => ha x c (List.mem_cons_of_mem _ hm)
    cases m with
    | assign p v =>
      have hv := h p v (by simp)
      match p with
      | [] => simpa [plainProperties, properties] using ih
      | [x] => simp [plainProperties, properties, hv, ih]
      | _ :: _ :: _ => simpa [plainProperties, properties] using ih
    | array x c => exact absurd (by simp) (ha x c)
    | _ => simpa [plainProperties, properties] using ih

/-! ### Methods -/

/-- The method left in the tree after some visits. -/
def again : Nat → Method → Method
  | 0, m => m
  | n + 1, m => again n (visitFuncDef m).2

theorem visit_name (m : Method) : (visitFuncDef m).2.name = m.name := by
  unfold visitFuncDef; split
  · rfl
  · split <;> rfl

theorem again_name (n : Nat) (m : Method) : (again n m).name = m.name := by
  induction n generalizing m with
  | zero => rfl
  | succ n ih => simp [again, ih, visit_name]

theorem take_none_iff (ls : List Line) : takeParameters ls = none ↔ ¬ ∃ b ns, firstLine ls = some (.parameters b ns) := by
  induction ls with
  | nil => simp [takeParameters, firstLine]
  | cons l t ih => cases l <;> simp [takeParameters, firstLine, ih]

theorem take_some {ls : List Line} {b : Bool} {ns : List Name} {rest : List Line} (h : takeParameters ls = some (b, ns, rest)) :
    firstLine ls = some (.parameters b ns) ∧ executed rest = executed ls := by
  induction ls generalizing rest with
  | nil => simp [takeParameters] at h
  | cons l t ih =>
    cases l with
    | comment c =>
      simp only [takeParameters, Option.map_eq_some_iff] at h
      obtain ⟨⟨b', ns', r⟩, h1, h2⟩ := h
      simp only [Prod.mk.injEq] at h2
      obtain ⟨rfl, rfl, rfl⟩ := h2
      obtain ⟨i1, i2⟩ := ih h1
      exact ⟨i1, by simp [executed, i2]⟩
    | parameters b' ns' =>
      simp only [takeParameters, Option.some.injEq, Prod.mk.injEq] at h
      obtain ⟨rfl, rfl, rfl⟩ := h
      exact ⟨rfl, rfl⟩
    | stmt s => simp [takeParameters] at h

theorem body_eq (ls : List Line) : bodyOf ls = executed ls := by
  induction ls with
  | nil => rfl
  | cons l t ih => cases l <;> simp_all [bodyOf, executed, List.filter_cons]

theorem visit_faithful (m : Method) : (visitFuncDef m).1 = faithful m := by
  unfold visitFuncDef faithful declared
  by_cases h : m.header = []
  · rw [if_neg (by simp [h]), if_pos h]
    split
    · rename_i b ns rest ht
      obtain ⟨h1, h2⟩ := take_some ht
      simp [h1, body_eq, h2]
    · rename_i ht
      have hf := (take_none_iff _).mp ht
      split
      · rename_i b ns hb
        exact absurd ⟨b, ns, hb⟩ hf
      · simp [body_eq]
  · rw [if_pos h, if_neg h]; simp [body_eq]

/-- A parameter statement behind comments. -/
theorem take_comments (cs : List String) (b : Bool) (ns : List Name) (more : List Line)
    (h : ∀ b ns, firstLine more ≠ some (.parameters b ns)) :
    ∃ rest, takeParameters (cs.map Line.comment ++ .parameters b ns :: more) = some (b, ns, rest) ∧ takeParameters rest = none := by
  induction cs with
  | nil => exact ⟨more, rfl, (take_none_iff _).mpr fun ⟨b, ns, e⟩ => h b ns e⟩
  | cons c cs ih =>
    obtain ⟨rest, h1, h2⟩ := ih
    exact ⟨.comment c :: rest, by simp [takeParameters, h1], by simp [takeParameters, h2]⟩

theorem visit_stable (m : Method) (h : ¬ ParameterStatement m) : (visitFuncDef m).2 = m := by
  unfold visitFuncDef
  split
  · rfl
  · rename_i hh
    have hh : m.header = [] := Decidable.not_not.mp hh
    have : takeParameters m.lines = none := (take_none_iff _).mpr fun hp => h ⟨hh, hp⟩
    rw [this]

theorem again_stable (n : Nat) (m : Method) (h : ¬ ParameterStatement m) : again n m = m := by
  induction n with
  | zero => rfl
  | succ n ih => simp [again, visit_stable m h, ih]

theorem fold_methods (as : List (Path × String)) (ms : List Member) (s : LoopState) :
    (ms.foldl (memberStep as) s).methods = s.methods.map (again (objects ms)) := by
  induction ms generalizing s with
  | nil => simp [objects, again]
  | cons m t ih =>
    rw [List.foldl_cons, ih]
    cases m with
    | comment c => simp [memberStep, objects]
    | assign p v =>
      simp only [memberStep, objects]
      split <;> rfl
    | array x c => simp [memberStep, objects]
    | method m => simp [memberStep, objects]
    | addObject n ty w =>
      have : (memberStep as s (.addObject n ty w)).methods = s.methods.map fun m => (visitFuncDef m).2 := by
        simp only [memberStep, addObjectStep]; split <;> rfl
      rw [this, List.map_map]
      rfl

theorem methodsOf_eq (ms : List Member) : methodsOf ms = ms.filterMap fun | .method m => some m | _ => none := by
  induction ms with
  | nil => rfl
  | cons m t ih => cases m <;> simp [methodsOf, ih]

theorem fold_get (f : Name) (L : List Method) (d : Dict Name MethodCode) :
    (L.foldl addMethod d).get f = ((L.reverse.find? (·.name = [f])).map fun m => (visitFuncDef m).1).or (d.get f) := by
  induction L generalizing d with
  | nil => simp
  | cons m t ih =>
    rw [List.foldl_cons, ih, List.reverse_cons, List.find?_append]
    cases hf : t.reverse.find? (·.name = [f]) with
    | some m' => simp
    | none =>
      simp only [Option.map_none, Option.none_or, List.find?_cons, List.find?_nil]
      by_cases hm : m.name = [f]
      · simp [hm, addMethod, Dict.get_set_self]
      · simp only [hm, decide_false, Option.map_none, Option.none_or]
        unfold addMethod
        split
        · rename_i g hg
          rw [Dict.get_set_ne]
          intro e; exact hm (by rw [hg, e])
        · rfl

theorem fold_functions (o f : Name) (L : List Method) (d : Dict Name MethodCode) :
    (L.foldl (addFunction o) d).get f = ((L.reverse.find? (·.name = [o, f])).map fun m => (visitFuncDef m).1).or (d.get f) := by
  induction L generalizing d with
  | nil => simp
  | cons m t ih =>
    rw [List.foldl_cons, ih, List.reverse_cons, List.find?_append]
    cases hf : t.reverse.find? (·.name = [o, f]) with
    | some m' => simp
    | none =>
      simp only [Option.map_none, Option.none_or, List.find?_cons, List.find?_nil]
      by_cases hm : m.name = [o, f]
      · simp [hm, addFunction, Dict.get_set_self]
      · simp only [hm, decide_false, Option.map_none, Option.none_or]
        unfold addFunction
        split
        · rename_i p g hg
          split
          · rename_i hp
            rw [Dict.get_set_ne]
            intro e; exact hm (by rw [hg, e, hp])
          · rfl
        · rfl

theorem find_map (q : Path) (g : Method → Method) (hg : ∀ m, (g m).name = m.name) (L : List Method) :
    (L.map g).reverse.find? (·.name = q) = (L.reverse.find? (·.name = q)).map g := by
  rw [← List.map_reverse, List.find?_map]
  congr 2
  funext m
  simp [hg]

/-- The method found in the generated class, in terms of the last definition in the source. -/
theorem methods_get (ms : List Member) (f : Name) :
    (visitClassDef ms).methods.get f = (lastMethod [f] ms).map fun m => (visitFuncDef (again (objects ms) m)).1 := by
  unfold visitClassDef
  simp only [fold_get, fold_methods, Dict.get_nil, Option.or_none, find_map _ _ (again_name _), lastMethod, methodsOf_eq, Option.map_map]
  rfl

end ClassAux
open ClassAux

/-! ## Properties of the class -/

/-- **C73**, exactly: the properties that a new object gets are those initialised in the class body
with a value that contains no member access, in order and with that value; arrays declared there are
not among them. (`this` is not the
name of a property.) -/
theorem C73_properties_exact (ms : List Member) (hthis : ∀ v, .assign ["this"] v ∉ ms) :
    props (visitClassDef ms).inits = plainProperties ms := by
  simpa [visitClassDef, props] using fold_props (assignsOf ms) ms ⟨methodsOf ms, [], []⟩ hthis

example : plainProperties [.assign ["x"] ⟨fun _ => "5", false⟩, .assign ["w"] ⟨fun _ => "S.other.width", true⟩] = [("x", "5")] := by decide

/-- **C73** when no value contains a member access and no array is declared: every property initialised in the class body is
initialised in a new object, in order and with its value. -/
theorem C73_properties_partial (ms : List Member) (hthis : ∀ v, .assign ["this"] v ∉ ms)
    (h : ∀ t v, .assign t v ∈ ms → v.member = false) (ha : ∀ x c, .array x c ∉ ms) :
    props (visitClassDef ms).inits = properties ms := by
  rw [C73_properties_exact ms hthis, plain_eq ms h ha]

/-- `x = 5`, `title = "a"`. -/
def exPlain : List Member :=
  [.assign ["x"] ⟨fun _ => "5", false⟩, .comment "# about", .addObject "ok" "Commandbutton" [("caption", "'Go'")],
   .assign ["title"] ⟨fun _ => "'a'", false⟩, .method ⟨["click"], [], [.stmt "pass"]⟩]

example : (∀ v, Member.assign ["this"] v ∉ exPlain) ∧ (∀ t v, Member.assign t v ∈ exPlain → v.member = false) ∧
    (∀ x c, Member.array x c ∉ exPlain) ∧ properties exPlain = [("x", "5"), ("title", "'a'")] := by
  refine ⟨fun v h => ?_, fun t v h => ?_, fun x c h => ?_, rfl⟩
  · simp [exPlain] at h
  · simp only [exPlain, List.mem_cons, Member.assign.injEq, reduceCtorEq, false_or, or_false, List.not_mem_nil] at h
    rcases h with ⟨_, rfl⟩ | ⟨_, rfl⟩ <;> rfl
  · simp [exPlain] at h

/-- `DIMENSION items[3]`, `width = other.width`, `x = 5`. -/
def exMember : List Member :=
  [.array "items" "Array(3)", .assign ["width"] ⟨fun b => if b then "S.other.width" else "S.other.width", true⟩, .assign ["x"] ⟨fun _ => "5", false⟩]

namespace ClassAux

theorem plain_length (ms : List Member) : (plainProperties ms).length ≤ (properties ms).length := by
  induction ms with
  | nil => simp [plainProperties, properties]
  | cons m ms ih =>
    cases m with
    | comment c => simpa [plainProperties, properties] using ih
    | method f => simpa [plainProperties, properties] using ih
    | addObject n t w => simpa [plainProperties, properties] using ih
    | array x c =>
      simp only [plainProperties, properties, List.length_cons]
      omega
    | assign t v =>
      match t with
      | [] => simpa [plainProperties, properties] using ih
      | x :: y :: z => simpa [plainProperties, properties] using ih
      | [x] =>
        simp only [plainProperties, properties, List.length_cons]
        split <;> (try simp only [List.length_cons]) <;> omega

end ClassAux

/-- **C73** fails exactly for classes with an array property or a property whose initial value contains a
member access: these are dropped. -/
theorem C73_properties_iff (ms : List Member) (hthis : ∀ v, .assign ["this"] v ∉ ms) :
    props (visitClassDef ms).inits = properties ms ↔
      (∀ x v, .assign [x] v ∈ ms → v.member = false) ∧ ∀ x c, .array x c ∉ ms := by
  rw [C73_properties_exact ms hthis]
  clear hthis
  induction ms with
  | nil => simp [plainProperties, properties]
  | cons m ms ih =>
    have hl := plain_length ms
    cases m with
    | array x c =>
      constructor
      · intro h
        have := congrArg List.length h
        simp only [plainProperties, properties, List.length_cons] at this
        omega
      · intro h
        exact absurd (List.mem_cons_self) (h.2 x c)
    | comment c => simpa [plainProperties, properties] using ih
    | method f => simpa [plainProperties, properties] using ih
    | addObject n t w => simpa [plainProperties, properties] using ih
    | assign t v =>
      match t with
      | [] => simpa [plainProperties, properties] using ih
      | x :: y :: z => simpa [plainProperties, properties] using ih
      | [x] =>
        by_cases hm : v.member
        · constructor
          · intro h
            have := congrArg List.length h
            simp only [plainProperties, properties, hm, if_true, List.length_cons] at this
            omega
          · intro h
            have := h.1 x v (by simp)
            rw [hm] at this
            cases this
        · simp only [plainProperties, properties, hm, Bool.false_eq_true, if_false, List.cons.injEq, true_and, ih,
            List.mem_cons, Member.assign.injEq, reduceCtorEq, false_or]
          constructor
          · rintro ⟨h1, h2⟩
            refine ⟨?_, h2⟩
            rintro y w (⟨⟨rfl, _⟩, rfl⟩ | h)
            · simpa using hm
            · exact h1 y w h
          · rintro ⟨h1, h2⟩
            exact ⟨fun y w h => h1 y w (Or.inr h), h2⟩

example : properties exMember = [("items", "Array(3)"), ("width", "S.other.width"), ("x", "5")] ∧
    props (visitClassDef exMember).inits = [("x", "5")] ∧ (∀ v, Member.assign ["this"] v ∉ exMember) := by
  refine ⟨by decide, by decide, fun v => by simp [exMember]⟩

/-! ## Properties of member objects -/

/-- **C74**, what happens: an object added to the class is created with the properties of its WITH
clause and with its name and parent, whatever assignments to its properties the class body has. -/
theorem C74_object_exact (ms : List Member) (name : Name) (hS : name ≠ "S") (hs : name ≠ "self")
    (withs : List (Name × String)) :
    objectArgs (assignsOf ms) name withs =
      ((Dict.update ([] : Dict Name String) withs).set "parent" "self").set "name" name := by
  simp [objectArgs, foldAssign_id name hS hs]

example : objectArgs (assignsOf [.assign ["ok", "caption"] ⟨fun _ => "'OK'", false⟩]) "ok" [("width", "20"), ("width", "30")] =
    [("width", "30"), ("parent", "self"), ("name", "ok")] := by decide

namespace ClassAux

theorem update_get (x : Name) (withs : List (Name × String)) (d : Dict Name String) :
    (Dict.update d withs).get x = (lastFor x withs).or (d.get x) := by
  induction withs generalizing d with
  | nil => simp [Dict.update, lastFor]
  | cons p t ih =>
    obtain ⟨y, v⟩ := p
    have : Dict.update d ((y, v) :: t) = Dict.update (d.set y v) t := rfl
    rw [this, ih, lastFor]
    by_cases h : y = x
    · subst h; simp [Dict.get_set_self]
    · rw [Dict.get_set_ne _ _ (fun e => h e.symm)]
      simp [h]

/-- The objects created, in order. -/
def creates : List Init → List (Name × Dict Name String)
  | [] => []
  | .create n _ a :: is => (n, a) :: creates is
  | _ :: is => creates is

theorem creates_append (a b : List Init) : creates (a ++ b) = creates a ++ creates b := by
  induction a with
  | nil => rfl
  | cons i t ih => cases i <;> simp [creates, ih]

/-- The objects added in the class body, in order, with their WITH clauses. -/
def added : List Member → List (Name × List (Name × String))
  | [] => []
  | .addObject n _ w :: ms => (n, w) :: added ms
  | _ :: ms => added ms

theorem fold_creates (as : List (Path × String)) (ms : List Member) (s : LoopState) :
    creates (ms.foldl (memberStep as) s).inits = creates s.inits ++ (added ms).map fun p => (p.1, objectArgs as p.1 p.2) := by
  induction ms generalizing s with
  | nil => simp [added]
  | cons m t ih =>
    rw [List.foldl_cons, ih]
    cases m with
    | comment c => simp [memberStep, creates_append, creates, added]
    | array x c => simp [memberStep, added]
    | method m => simp [memberStep, added]
    | addObject n ty w =>
      simp only [memberStep, addObjectStep, added]
      split <;> simp [creates_append, creates]
    | assign p v =>
      simp only [memberStep, added]
      split <;> simp [creates_append, creates]

end ClassAux

/-- **C74** for the WITH clause: the objects of the class body are created in order, each with the
value its WITH clause gives to a property, and with its name and parent. -/
theorem C74_with_partial (ms : List Member) (names : ∀ p ∈ added ms, p.1 ≠ "S" ∧ p.1 ≠ "self") :
    (creates (visitClassDef ms).inits).map Prod.fst = (added ms).map Prod.fst ∧
    ∀ i (h : i < (added ms).length), ∃ a, (creates (visitClassDef ms).inits)[i]? = some ((added ms)[i].1, a) ∧
      a.get "parent" = some "self" ∧ a.get "name" = some (added ms)[i].1 ∧
      ∀ x, x ≠ "parent" → x ≠ "name" → a.get x = lastFor x (added ms)[i].2 := by
  have key : creates (visitClassDef ms).inits = (added ms).map fun p => (p.1, objectArgs (assignsOf ms) p.1 p.2) := by
    simpa [visitClassDef, creates] using fold_creates (assignsOf ms) ms ⟨methodsOf ms, [], []⟩
  refine ⟨by rw [key, List.map_map]; rfl, fun i h => ?_⟩
  obtain ⟨n1, n2⟩ := names _ (List.getElem_mem h)
  refine ⟨objectArgs (assignsOf ms) (added ms)[i].1 (added ms)[i].2, by rw [key]; simp [h], ?_⟩
  rw [C74_object_exact ms _ n1 n2]
  refine ⟨?_, Dict.get_set_self _ _ _, fun x hp hn => ?_⟩
  · rw [Dict.get_set_ne _ _ (by decide), Dict.get_set_self]
  · rw [Dict.get_set_ne _ _ hn, Dict.get_set_ne _ _ hp, update_get]; simp

example : ∀ p ∈ added exPlain, p.1 ≠ "S" ∧ p.1 ≠ "self" := by decide

/-- A form as it is read from an `.scx` file: the properties of the button are assignments in the
class body. -/
def exForm : List Member :=
  [.addObject "command1" "Commandbutton" [], .assign ["command1", "caption"] ⟨fun _ => "'OK'", false⟩]

/-- **C74** fails: what an assignment in the class body gives to a property of an added object never reaches
the object; unless its WITH clause gives the property too, the object is created without it. -/
theorem C74_object_fails (ms : List Member) (names : ∀ p ∈ added ms, p.1 ≠ "S" ∧ p.1 ≠ "self") (o x : Name) (v : Value)
    (withs : List (Name × String)) (i : Nat) (hi : (added ms)[i]? = some (o, withs)) (_ : .assign [o, x] v ∈ ms)
    (hx : x ≠ "parent" ∧ x ≠ "name") (hw : ∀ u, (x, u) ∉ withs) :
    ∃ a, (creates (visitClassDef ms).inits)[i]? = some (o, a) ∧ a.get x = none := by
  obtain ⟨_, h⟩ := C74_with_partial ms names
  obtain ⟨hlt, he⟩ := List.getElem?_eq_some_iff.mp hi
  obtain ⟨a, h1, _, _, h2⟩ := h i hlt
  rw [he] at h1 h2
  refine ⟨a, h1, ?_⟩
  rw [h2 x hx.1 hx.2]
  clear h1 h2 he hi
  induction withs with
  | nil => rfl
  | cons p t ih =>
    obtain ⟨y, u⟩ := p
    have hy : y ≠ x := fun e => hw u (by simp [e])
    rw [lastFor, ih fun u hu => hw u (List.mem_cons_of_mem _ hu), if_neg hy]
    rfl

example : (added exForm)[0]? = some ("command1", []) ∧ (∀ p ∈ added exForm, p.1 ≠ "S" ∧ p.1 ≠ "self") ∧
    (visitClassDef exForm).inits = [.create "command1" "Commandbutton" [("parent", "self"), ("name", "command1")]] := by
  decide

/-! ## Methods -/

/-- **C75** in classes without ADD OBJECT, and in every class for methods that have no parameter
statement: the generated class has the last definition of each method, with the parameters it
declares and with its lines. -/
theorem C75_methods_partial (ms : List Member) (f : Name) (m : Method) (hm : lastMethod [f] ms = some m)
    (h : objects ms = 0 ∨ ¬ ParameterStatement m) :
    (visitClassDef ms).methods.get f = some (faithful m) := by
  rw [methods_get, hm]
  rcases h with h | h
  · simp [h, again, visit_faithful]
  · simp [again_stable _ m h, visit_faithful]

example : lastMethod ["move"] [.method ⟨["move"], [], [.parameters false ["n"], .stmt "S.x = S.n"]⟩] =
      some ⟨["move"], [], [.parameters false ["n"], .stmt "S.x = S.n"]⟩ ∧
    faithful ⟨["move"], [], [.parameters false ["n"], .stmt "S.x = S.n"]⟩ = ⟨false, ["n"], [.stmt "S.x = S.n"]⟩ := by decide

/-- **C75**: no methods are made up. -/
theorem C75_no_others (ms : List Member) (f : Name) (hm : lastMethod [f] ms = none) :
    (visitClassDef ms).methods.get f = none := by
  rw [methods_get, hm]; rfl

/-- Two definitions of a method, with parameters in the header and in a statement. -/
def exMethods : List Member :=
  [.method ⟨["init"], ["a", "b"], [.stmt "S.x = 1"]⟩,
   .method ⟨["click"], [], [.comment "# c", .parameters true ["n"], .stmt "S.x = 2"]⟩]

example : lastMethod ["click"] exMethods = some ⟨["click"], [], [.comment "# c", .parameters true ["n"], .stmt "S.x = 2"]⟩ ∧
    objects exMethods = 0 ∧
    (visitClassDef exMethods).methods.get "click" = some ⟨true, ["n"], [.comment "# c", .stmt "S.x = 2"]⟩ := by decide

/-- **C75** fails whenever the class has an ADD OBJECT: a method with one parameter statement has no
parameters in the generated class. -/
theorem C75_parameters_lost_fails (ms : List Member) (f : Name) (m : Method) (hm : lastMethod [f] ms = some m)
    (ho : 0 < objects ms) {b : Bool} {ns : List Name} {more : List Line} (hh : m.header = [])
    {cs : List String} (hl : m.lines = cs.map Line.comment ++ .parameters b ns :: more)
    (hm' : ∀ b ns, firstLine more ≠ some (.parameters b ns)) :
    ∃ code, (visitClassDef ms).methods.get f = some code ∧ code.params = [] := by
  rw [methods_get, hm]
  obtain ⟨n, hn⟩ : ∃ n, objects ms = n + 1 := ⟨objects ms - 1, by omega⟩
  refine ⟨_, rfl, ?_⟩
  obtain ⟨rest, hp, hr⟩ := take_comments cs b ns more hm'
  rw [← hl] at hp
  have h2 : (visitFuncDef m).2 = { m with lines := rest } := by simp [visitFuncDef, hh, hp]
  have hst : ¬ ParameterStatement { m with lines := rest } := fun hps => (take_none_iff rest).mp hr hps.2
  have e : again (n + 1) m = { m with lines := rest } := by
    show again n (visitFuncDef m).2 = _
    rw [h2, again_stable _ _ hst]
  simp only [hn]
  rw [e, visit_faithful]
  have := (take_none_iff rest).mp hr
  simp only [faithful, declared, hh, if_true]
  split
  · rename_i b' ns' e; exact absurd ⟨_, _, e⟩ this
  · rfl

/-- A method with a parameter, in a class with an object. -/
def exLost : List Member :=
  [.addObject "ok" "Commandbutton" [], .method ⟨["move"], [], [.parameters true ["n"], .stmt "S.x = S.n"]⟩]

example : 0 < objects exLost ∧
    [.parameters true ["n"], .stmt "S.x = S.n"] = [].map Line.comment ++ [.parameters true ["n"], .stmt "S.x = S.n"] ∧
    firstLine [.stmt "S.x = S.n"] = some (.stmt "S.x = S.n") := by decide

example : lastMethod ["move"] exLost = some ⟨["move"], [], [.parameters true ["n"], .stmt "S.x = S.n"]⟩ ∧
    (visitClassDef exLost).methods.get "move" = some ⟨true, [], [.stmt "S.x = S.n"]⟩ := by decide

/-! ## Methods of member objects -/

namespace ClassAux

theorem subclassName_inj {a b : Name} (h : subclassName a = subclassName b) : a = b := by
  unfold subclassName at h
  have := congrArg String.toList h
  simp only [String.toList_append] at this
  exact String.toList_inj.mp (List.append_cancel_left this)

/-- Members behind the object leave its nested class alone. -/
theorem fold_subclass (as : List (Path × String)) (o : Name) (ms : List Member) (s : LoopState)
    (h : ∀ ty w, .addObject o ty w ∉ ms) :
    (ms.foldl (memberStep as) s).subclasses.get (subclassName o) = s.subclasses.get (subclassName o) := by
  induction ms generalizing s with
  | nil => rfl
  | cons m t ih =>
    rw [List.foldl_cons, ih _ fun ty w hm => h ty w (List.mem_cons_of_mem _ hm)]
    cases m with
    | comment c => rfl
    | array x c => rfl
    | method m => rfl
    | assign p v => simp only [memberStep]; split <;> rfl
    | addObject n ty w =>
      have hn : n ≠ o := fun e => h ty w (by simp [e])
      simp only [memberStep, addObjectStep]
      split
      · rfl
      · exact Dict.get_set_ne _ _ fun e => hn (subclassName_inj e).symm

theorem fold_inits (as : List (Path × String)) (ms : List Member) (s : LoopState) :
    ∃ is, (ms.foldl (memberStep as) s).inits = s.inits ++ is := by
  induction ms generalizing s with
  | nil => exact ⟨[], by simp⟩
  | cons m t ih =>
    rw [List.foldl_cons]
    obtain ⟨is, h⟩ := ih (memberStep as s m)
    have : ∃ js, (memberStep as s m).inits = s.inits ++ js := by
      cases m with
      | comment c => exact ⟨_, rfl⟩
      | array x c => exact ⟨[], by simp [memberStep]⟩
      | method m => exact ⟨[], by simp [memberStep]⟩
      | assign p v =>
        simp only [memberStep]
        split
        · exact ⟨_, rfl⟩
        · exact ⟨[], by simp⟩
      | addObject n ty w =>
        simp only [memberStep, addObjectStep]
        split <;> exact ⟨_, rfl⟩
    obtain ⟨js, hj⟩ := this
    exact ⟨js ++ is, by rw [h, hj, List.append_assoc]⟩

end ClassAux

namespace ClassAux

/-- The method of an added object in its nested class, in terms of the last definition in the source. -/
theorem member_method (before after : List Member) (o f : Name) (type : String)
    (withs : List (Name × String)) (m : Method)
    (once : ∀ ty w, .addObject o ty w ∉ after)
    (hm : lastMethod [o, f] (before ++ .addObject o type withs :: after) = some m) :
    ∃ functions args,
      (visitClassDef (before ++ .addObject o type withs :: after)).subclasses.get (subclassName o) = some (type, functions) ∧
      .create o ("self." ++ subclassName o) args ∈ (visitClassDef (before ++ .addObject o type withs :: after)).inits ∧
      functions.get f = some (visitFuncDef (again (objects before) m)).1 := by
  generalize hms : before ++ .addObject o type withs :: after = ms at *
  let s0 : LoopState := ⟨methodsOf ms, [], []⟩
  let s1 := before.foldl (memberStep (assignsOf ms)) s0
  have hs1 : s1.methods = (methodsOf ms).map (again (objects before)) := fold_methods _ _ _
  have hget : (objectFunctions s1.methods o).get f = some (visitFuncDef (again (objects before) m)).1 := by
    unfold objectFunctions
    rw [hs1, fold_functions, find_map _ _ (again_name _)]
    have : (methodsOf ms).reverse.find? (·.name = [o, f]) = some m := by rw [methodsOf_eq]; exact hm
    rw [this]
    simp
  have hne : (objectFunctions s1.methods o).isEmpty = false := by
    cases he : objectFunctions s1.methods o with
    | nil => rw [he] at hget; simp at hget
    | cons a b => rfl
  have hstep : memberStep (assignsOf ms) s1 (.addObject o type withs) =
      { methods := s1.methods.map fun m => (visitFuncDef m).2
        inits := s1.inits ++ [.create o ("self." ++ subclassName o) (objectArgs (assignsOf ms) o withs)]
        subclasses := s1.subclasses.set (subclassName o) (type, objectFunctions s1.methods o) } := by
    simp [memberStep, addObjectStep, hne]
  have hfold : ms.foldl (memberStep (assignsOf ms)) s0 =
      after.foldl (memberStep (assignsOf ms)) (memberStep (assignsOf ms) s1 (.addObject o type withs)) := by
    conv => lhs; rw [← hms]
    rw [List.foldl_append, List.foldl_cons, hms]
  refine ⟨_, objectArgs (assignsOf ms) o withs, ?_, ?_, hget⟩
  · show (ms.foldl (memberStep (assignsOf ms)) s0).subclasses.get (subclassName o) = _
    rw [hfold, fold_subclass _ o after _ once, hstep]
    exact Dict.get_set_self _ _ _
  · show _ ∈ (ms.foldl (memberStep (assignsOf ms)) s0).inits
    rw [hfold]
    obtain ⟨is, hi⟩ := fold_inits (assignsOf ms) after (memberStep (assignsOf ms) s1 (.addObject o type withs))
    rw [hi, hstep]
    simp

end ClassAux

/-- **C76** for an object added once, when it is the first object of the class or the method has no
parameter statement: the object is created from a nested class of its type, which has the last
definition of each of its methods, with the parameters it declares and with its lines. -/
theorem C76_member_method_partial (before after : List Member) (o f : Name) (type : String)
    (withs : List (Name × String)) (m : Method)
    (once : ∀ ty w, .addObject o ty w ∉ after)
    (hm : lastMethod [o, f] (before ++ .addObject o type withs :: after) = some m)
    (h : objects before = 0 ∨ ¬ ParameterStatement m) :
    ∃ functions args,
      (visitClassDef (before ++ .addObject o type withs :: after)).subclasses.get (subclassName o) = some (type, functions) ∧
      .create o ("self." ++ subclassName o) args ∈ (visitClassDef (before ++ .addObject o type withs :: after)).inits ∧
      functions.get f = some (faithful m) := by
  obtain ⟨functions, args, h1, h2, h3⟩ := member_method before after o f type withs m once hm
  refine ⟨functions, args, h1, h2, ?_⟩
  rw [h3]
  rcases h with h | h
  · simp [h, again, visit_faithful]
  · simp [again_stable _ m h, visit_faithful]

/-- Two buttons with a method each. -/
def exButtons : List Member :=
  [.addObject "ok" "Commandbutton" [], .addObject "no" "Commandbutton" [],
   .method ⟨["ok", "keypress"], [], [.parameters true ["k"], .stmt "S.x = S.k"]⟩,
   .method ⟨["no", "keypress"], [], [.parameters true ["k"], .stmt "S.x = S.k"]⟩]

example : lastMethod ["ok", "keypress"] ([] ++ exButtons) = some ⟨["ok", "keypress"], [], [.parameters true ["k"], .stmt "S.x = S.k"]⟩ ∧
    objects [] = 0 ∧ ∀ ty w, Member.addObject "ok" ty w ∉ exButtons.tail :=
  ⟨by decide, rfl, fun ty w => by simp [exButtons]⟩

/-- **C76** fails for every object but the first one of a class: a method of it with one parameter statement has
no parameters in the nested class. -/
theorem C76_parameters_lost_fails (before after : List Member) (o f : Name) (type : String)
    (withs : List (Name × String)) (m : Method)
    (once : ∀ ty w, .addObject o ty w ∉ after)
    (hm : lastMethod [o, f] (before ++ .addObject o type withs :: after) = some m)
    (ho : 0 < objects before) {b : Bool} {ns : List Name} {more : List Line} (hh : m.header = [])
    {cs : List String} (hl : m.lines = cs.map Line.comment ++ .parameters b ns :: more)
    (hm' : ∀ b ns, firstLine more ≠ some (.parameters b ns)) :
    ∃ functions code,
      (visitClassDef (before ++ .addObject o type withs :: after)).subclasses.get (subclassName o) = some (type, functions) ∧
      functions.get f = some code ∧ code.params = [] := by
  obtain ⟨functions, args, h1, _, h3⟩ := member_method before after o f type withs m once hm
  refine ⟨functions, _, h1, h3, ?_⟩
  obtain ⟨n, hn⟩ : ∃ n, objects before = n + 1 := ⟨objects before - 1, by omega⟩
  obtain ⟨rest, hp, hr⟩ := take_comments cs b ns more hm'
  rw [← hl] at hp
  have h2 : (visitFuncDef m).2 = { m with lines := rest } := by simp [visitFuncDef, hh, hp]
  have hst : ¬ ParameterStatement { m with lines := rest } := fun hps => (take_none_iff rest).mp hr hps.2
  have e : again (n + 1) m = { m with lines := rest } := by
    show again n (visitFuncDef m).2 = _
    rw [h2, again_stable _ _ hst]
  rw [hn, e]
  simp [visitFuncDef, hh, hr]

example : lastMethod ["no", "keypress"] ([.addObject "ok" "Commandbutton" []] ++ exButtons.tail) =
      some ⟨["no", "keypress"], [], [.parameters true ["k"], .stmt "S.x = S.k"]⟩ ∧
    0 < objects [.addObject "ok" "Commandbutton" []] ∧
    (visitClassDef exButtons).subclasses.get (subclassName "no") =
      some ("Commandbutton", [("keypress", ⟨true, [], [.stmt "S.x = S.k"]⟩)]) := by decide

/-- **C76** fails for an object that the class inherits: its methods are in no nested class and are no methods of
the class, so they are dropped. -/
theorem C76_inherited_fails (ms : List Member) (o : Name) (h : ∀ ty w, .addObject o ty w ∉ ms) :
    (visitClassDef ms).subclasses.get (subclassName o) = none ∧
    ∀ f, lastMethod [f] ms = none → (visitClassDef ms).methods.get f = none := by
  refine ⟨?_, fun f hf => C75_no_others ms f hf⟩
  have := fold_subclass (assignsOf ms) o ms ⟨methodsOf ms, [], []⟩ h
  exact this

example : visitClassDef [.method ⟨["inherited", "click"], [], [.stmt "S.x = 1"]⟩] = ⟨[], [], []⟩ ∧
    lastMethod ["inherited", "click"] [.method ⟨["inherited", "click"], [], [.stmt "S.x = 1"]⟩] ≠ none ∧
    lastMethod ["click"] [.method ⟨["inherited", "click"], [], [.stmt "S.x = 1"]⟩] = none := by decide

end Props
