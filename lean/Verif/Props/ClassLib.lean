import Verif.Model.ClassLib
import Verif.Props.Forms
/-!
# Class libraries (C112)
-/
namespace Props.ClassLibSpec
open Model.ClassLib (Str Rec)
open Props.FormsSpec (Obj nonblank)

def Obj.record (parent : Str) (includes : List Str) (o : Obj) : Rec :=
  { objname := o.name, cls := o.cls, parent := parent, includes := includes
    props := o.props.map fun p => p.1 ++ " = ".toList ++ p.2
    methods := o.methods.flatMap fun m => ("PROCEDURE ".toList ++ m.1) :: m.2 ++ ["ENDPROC".toList] }

mutual
/-- The records of the members of a class, with the path in PARENT. -/
def store (parent : Str) : Obj → List Rec
  | .mk n c p m ms => Obj.record parent [] (.mk n c p m ms) :: stores (parent ++ ".".toList ++ n) ms
def stores (parent : Str) : List Obj → List Rec
  | [] => []
  | o :: os => store parent o ++ stores parent os
end

/-- A class with its header files: its record, those of its members, and one without a class at the end. -/
def classRecords (c : List Str × Obj) : List Rec :=
  Obj.record [] c.1 c.2 :: stores c.2.name c.2.members ++
    [{ objname := c.2.name, cls := [], parent := [], includes := [], props := [], methods := [] }]

/-- The class library; the first record is a comment. -/
def file (classes : List (List Str × Obj)) : List Rec :=
  { objname := [], cls := [], parent := [], includes := [], props := [], methods := [] } ::
    classes.flatMap classRecords

/-- The definition that a programmer writes for a class without members; `val` writes the value of a
property. -/
def classSource (val : Str → Str) (c : List Str × Obj) : List Str :=
  c.1.map (fun x => "#include \"".toList ++ x ++ "\"".toList) ++
    ("DEFINE CLASS ".toList ++ c.2.name ++ " AS ".toList ++ c.2.cls) ::
    c.2.props.map (fun p => p.1 ++ " = ".toList ++ val p.2) ++
    c.2.methods.flatMap (fun m => ("PROCEDURE ".toList ++ m.1) :: nonblank m.2 ++ ["ENDPROC".toList]) ++
    ["ENDDEFINE".toList]

mutual
/-- An object and all objects in it, each one without members. -/
def parts : Obj → List Obj
  | .mk n c p m ms => .mk n c p m [] :: partsOf ms
def partsOf : List Obj → List Obj
  | [] => []
  | o :: os => parts o ++ partsOf os
end

/-- A class or member with a name, a class and properties with names without blanks. -/
def Proper (o : Obj) : Prop :=
  o.name ≠ [] ∧ o.cls ≠ [] ∧ ∀ p ∈ o.props, p.1 ≠ [] ∧ ∀ c ∈ p.1, PyVal.isSpace c = false

end Props.ClassLibSpec

namespace Props.ClassLibAux
open Model.ClassLib Props.ClassLibSpec PyVal
open Props.FormsSpec (nonblank Obj Obj.name Obj.cls Obj.props Obj.methods Obj.members)
open Props.FormsAux (nonblank_append nonblank_cons nonblank_same nonblank_flatMap)

theorem splitFirst_name {p : Str} (h : ∀ c ∈ p, isSpace c = false) (v : Str) : ∀ cur,
    splitFirst cur (p ++ " = ".toList ++ v) = some (cur ++ p, v) := by
  induction p with
  | nil => intro cur; simp [splitFirst]
  | cons c p ih =>
    intro cur
    have hc : c ≠ ' ' := by
      rintro rfl
      have := h ' ' (by simp)
      revert this; decide
    have hstep : splitFirst cur (c :: (p ++ " = ".toList ++ v)) = splitFirst (cur ++ [c]) (p ++ " = ".toList ++ v) := by
      rw [splitFirst]
      intro s he
      exact fun h => absurd he hc
    rw [List.cons_append, List.cons_append, hstep, ih (fun x hx => h x (by simp [hx]))]
    simp

theorem strip_name {p : Str} (h : ∀ c ∈ p, isSpace c = false) : strip p = p :=
  TextBlockAux.strip_eq.mpr
    ⟨fun c hc => h c (List.mem_of_mem_head? hc), fun c hc => h c (List.mem_of_mem_getLast? hc)⟩

theorem propLines_eq (accepts : Str → Bool) {ps : List (Str × Str)}
    (h : ∀ p ∈ ps, p.1 ≠ [] ∧ ∀ c ∈ p.1, isSpace c = false) :
    propLines accepts (ps.map fun p => p.1 ++ " = ".toList ++ p.2) =
      some (ps.map fun p => p.1 ++ " = ".toList ++ Model.Files.propertyValue accepts p.2) := by
  induction ps with
  | nil => rfl
  | cons p ps ih =>
    obtain ⟨h1, h2⟩ := h p (by simp)
    have hl : propLine accepts (p.1 ++ " = ".toList ++ p.2) =
        some (p.1 ++ " = ".toList ++ Model.Files.propertyValue accepts p.2) := by
      unfold propLine
      rw [if_neg (by simp), splitFirst_name h2]
      simp [strip_name h2]
    rw [List.map_cons, propLines, hl, ih (fun q hq => h q (by simp [hq]))]
    rfl

theorem classCode_eq (accepts : Str → Bool) {o : Obj} (h : Proper o) (parent : Str) (incs : List Str) :
    ∃ ls, classCode accepts (Obj.record parent incs o) = some ls ∧
      nonblank ls = classSource (Model.Files.propertyValue accepts) (incs, o) := by
  unfold classCode
  have hp : propLines accepts (Obj.record parent incs o).props = _ := propLines_eq accepts h.2.2
  rw [hp]
  refine ⟨_, rfl, ?_⟩
  have h1 : nonblank (incs.map fun x => "#include \"".toList ++ x ++ "\"".toList) =
      incs.map fun x => "#include \"".toList ++ x ++ "\"".toList :=
    nonblank_same fun l hl => by
      obtain ⟨x, _, rfl⟩ := List.mem_map.mp hl
      simp
  have h2 : nonblank (o.props.map fun p => p.1 ++ " = ".toList ++ Model.Files.propertyValue accepts p.2) =
      o.props.map fun p => p.1 ++ " = ".toList ++ Model.Files.propertyValue accepts p.2 :=
    nonblank_same fun l hl => by
      obtain ⟨x, _, rfl⟩ := List.mem_map.mp hl
      simp
  have h3 : nonblank (o.methods.flatMap fun m => ("PROCEDURE ".toList ++ m.1) :: m.2 ++ ["ENDPROC".toList]) =
      o.methods.flatMap fun m => ("PROCEDURE ".toList ++ m.1) :: nonblank m.2 ++ ["ENDPROC".toList] :=
    nonblank_flatMap _ _ _ fun m _ => by
      rw [List.cons_append, nonblank_cons _ (by simp), nonblank_append]
      rfl
  have h4 : nonblank ["ENDDEFINE".toList, []] = ["ENDDEFINE".toList] := rfl
  have h5 : nonblank [([] : Str)] = [] := rfl
  have h6 : nonblank [("DEFINE CLASS ".toList ++ o.name ++ " AS ".toList ++ o.cls)] =
      [("DEFINE CLASS ".toList ++ o.name ++ " AS ".toList ++ o.cls)] := nonblank_same (by simp)
  simp only [Obj.record, nonblank_append]
  rw [h1, h2, h3, h4, h5, h6]
  simp [classSource]

/-- The codes for a list of records, one after the other. -/
theorem convert_append (accepts : Str → Bool) (a b : List Rec) :
    convertVcx accepts (a ++ b) =
      match convertVcx accepts a, convertVcx accepts b with
      | some x, some y => some (x ++ y)
      | _, _ => none := by
  induction a with
  | nil =>
    rw [List.nil_append, convertVcx]
    cases convertVcx accepts b <;> rfl
  | cons r a ih =>
    rw [List.cons_append, convertVcx, convertVcx]
    split
    · exact ih
    · rw [ih]
      cases classCode accepts r <;> cases convertVcx accepts a <;> cases convertVcx accepts b <;> rfl

/-- The object without its members. -/
def bare : Obj → Obj
  | .mk n c p m _ => .mk n c p m []

theorem record_bare (o : Obj) (parent : Str) (incs : List Str) :
    Obj.record parent incs (bare o) = Obj.record parent incs o := by
  cases o; rfl

theorem convert_one (accepts : Str → Bool) {o : Obj} (h : Proper (bare o)) (parent : Str) (incs : List Str)
    {rs : List Rec} {codes : List (List Str)} (hrs : convertVcx accepts rs = some codes) :
    ∃ ls, convertVcx accepts (Obj.record parent incs o :: rs) = some (ls :: codes) ∧
      nonblank ls = classSource (Model.Files.propertyValue accepts) (incs, bare o) := by
  obtain ⟨ls, h1, h2⟩ := classCode_eq accepts h parent incs
  rw [record_bare] at h1
  refine ⟨ls, ?_, h2⟩
  rw [convertVcx, if_neg, h1, hrs]
  cases o with
  | mk n c p m ms =>
    rintro (h' | h')
    · exact h.1 h'
    · exact h.2.1 h'

mutual
theorem convert_store (accepts : Str → Bool) (o : Obj) : ∀ parent, (∀ x ∈ parts o, Proper x) →
    ∃ codes, convertVcx accepts (store parent o) = some codes ∧
      codes.map nonblank = (parts o).map fun x => classSource (Model.Files.propertyValue accepts) ([], x) := by
  match o with
  | .mk n c p m ms =>
    intro parent h
    rw [parts] at h
    obtain ⟨codes, h1, h2⟩ := convert_stores accepts ms (parent ++ ".".toList ++ n) fun x hx => h x (by simp [hx])
    obtain ⟨ls, g1, g2⟩ := convert_one accepts (o := .mk n c p m ms) (h _ (by simp [bare])) parent [] h1
    refine ⟨ls :: codes, by rw [store, g1], ?_⟩
    rw [parts, List.map_cons, List.map_cons, g2, h2]
    rfl
theorem convert_stores (accepts : Str → Bool) (os : List Obj) : ∀ parent, (∀ x ∈ partsOf os, Proper x) →
    ∃ codes, convertVcx accepts (stores parent os) = some codes ∧
      codes.map nonblank = (partsOf os).map fun x => classSource (Model.Files.propertyValue accepts) ([], x) := by
  match os with
  | [] => intro parent _; exact ⟨[], by rw [stores]; rfl, by rw [partsOf]; rfl⟩
  | o :: os =>
    intro parent h
    rw [partsOf] at h
    obtain ⟨a, h1, h2⟩ := convert_store accepts o parent fun x hx => h x (by simp [hx])
    obtain ⟨b, g1, g2⟩ := convert_stores accepts os parent fun x hx => h x (by simp [hx])
    refine ⟨a ++ b, ?_, ?_⟩
    · rw [stores, convert_append, h1, g1]
    · rw [partsOf, List.map_append, List.map_append, h2, g2]
end

/-- A class with a caption and one with a button in it. -/
def demoLabel : Obj := .mk "title".toList "label".toList [("Caption".toList, "Hello".toList)] [] []
def demoBox : Obj := .mk "box".toList "container".toList [("Width".toList, "100".toList)]
  [("Init".toList, ["x = 1".toList])] [.mk "cmd".toList "commandbutton".toList [] [] []]

end Props.ClassLibAux

namespace Props
open Model.ClassLib Props.ClassLibSpec Props.ClassLibAux
open Props.FormsSpec (nonblank Obj Obj.name Obj.cls Obj.props Obj.methods Obj.members)

/-- C112 (exact extent): every object of a class library, whether it is a class or a member of a class
or of a member, becomes a class of its own.  So no class has the members that it has in the library,
and there are classes with the names of the members. -/
theorem C112_members_fails (accepts : Str → Bool) {classes : List (List Str × Obj)}
    (h : ∀ c ∈ classes, ∀ x ∈ parts c.2, Proper x) :
    ∃ codes, convertVcx accepts (file classes) = some codes ∧
      codes.map nonblank = (classes.flatMap fun c => (c.1, bare c.2) :: (partsOf c.2.members).map (([], ·))).map
        (classSource (Model.Files.propertyValue accepts)) := by
  have hskip : ∀ rs, convertVcx accepts
      ({ objname := [], cls := [], parent := [], includes := [], props := [], methods := [] } :: rs) =
      convertVcx accepts rs := fun rs => by rw [convertVcx, if_pos (.inl rfl)]
  unfold file
  rw [hskip]
  induction classes with
  | nil => exact ⟨[], rfl, rfl⟩
  | cons c classes ih =>
    obtain ⟨rest, h1, h2⟩ := ih fun d hd => h d (by simp [hd])
    have hc := h c (by simp)
    have hb : parts c.2 = bare c.2 :: partsOf c.2.members := by
      cases c with
      | mk i o => cases o; rw [parts]; rfl
    rw [hb] at hc
    obtain ⟨ms, g1, g2⟩ := convert_stores accepts c.2.members c.2.name fun x hx => hc x (by simp [hx])
    have hlast : convertVcx accepts (stores c.2.name c.2.members ++
        [{ objname := c.2.name, cls := [], parent := [], includes := [], props := [], methods := [] }]) = some ms := by
      rw [convert_append, g1, convertVcx, if_pos (.inr rfl), convertVcx]
      simp
    obtain ⟨ls, e1, e2⟩ := convert_one accepts (o := c.2) (hc _ (by simp)) [] c.1 hlast
    refine ⟨ls :: ms ++ rest, ?_, ?_⟩
    · have hcr : classRecords c = Obj.record [] c.1 c.2 :: (stores c.2.name c.2.members ++
        [{ objname := c.2.name, cls := [], parent := [], includes := [], props := [], methods := [] }]) := rfl
      rw [List.flatMap_cons, convert_append, h1, hcr, e1]
    · rw [List.map_append, List.map_cons, e2, g2, h2, List.flatMap_cons, List.map_append, List.map_cons, List.map_map]
      rfl

/-- A container with a button becomes a container without it and a class `cmd`. -/
example : ∃ codes, convertVcx (fun _ => true) (file [([], demoBox)]) = some codes ∧
    codes.map nonblank = [
      ["DEFINE CLASS box AS container".toList, "Width = 100".toList, "PROCEDURE Init".toList, "x = 1".toList,
        "ENDPROC".toList, "ENDDEFINE".toList],
      ["DEFINE CLASS cmd AS commandbutton".toList, "ENDDEFINE".toList]] := by
  obtain ⟨codes, h1, h2⟩ := C112_members_fails (fun _ => true) (classes := [([], demoBox)]) (by
    intro c hc x hx
    rw [List.mem_singleton.mp hc] at hx
    simp only [demoBox, parts, partsOf, List.append_nil, List.mem_cons, List.not_mem_nil, or_false] at hx
    rcases hx with rfl | rfl <;> (unfold Proper; decide +kernel))
  refine ⟨codes, h1, h2.trans ?_⟩
  decide +kernel

/-- C112 (partial): a class library whose classes have no members becomes the definitions of these
classes, up to blank lines, with the values of the properties as in C57.  Missing: members
(`C112_members_fails`). -/
theorem C112_class_partial (accepts : Str → Bool) {classes : List (List Str × Obj)}
    (h : ∀ c ∈ classes, Proper c.2 ∧ c.2.members = []) :
    ∃ codes, convertVcx accepts (file classes) = some codes ∧
      codes.map nonblank = classes.map (classSource (Model.Files.propertyValue accepts)) := by
  have hbare : ∀ c ∈ classes, bare c.2 = c.2 ∧ partsOf c.2.members = [] ∧ parts c.2 = [c.2] := by
    intro c hc
    have hm := (h c hc).2
    cases c with
    | mk i o =>
      cases o with
      | mk n k p m ms =>
        have : ms = [] := hm
        subst this
        exact ⟨rfl, by show partsOf [] = []; rw [partsOf], by show parts _ = _; rw [parts, partsOf]⟩
  obtain ⟨codes, h1, h2⟩ := C112_members_fails accepts (classes := classes) fun c hc x hx => by
    rw [(hbare c hc).2.2, List.mem_singleton] at hx
    rw [hx]; exact (h c hc).1
  refine ⟨codes, h1, h2.trans ?_⟩
  congr 1
  clear h1 h2 h
  induction classes with
  | nil => rfl
  | cons c classes ih =>
    obtain ⟨b1, b2, _⟩ := hbare c (by simp)
    rw [List.flatMap_cons, b1, b2, ih fun d hd => hbare d (by simp [hd])]
    rfl

example : ∃ codes, convertVcx (fun _ => false) (file [(["defs.h".toList], demoLabel)]) = some codes ∧
    codes.map nonblank = [["#include \"defs.h\"".toList, "DEFINE CLASS title AS label".toList,
      "Caption = \"Hello\"".toList, "ENDDEFINE".toList]] := by
  obtain ⟨codes, h1, h2⟩ := C112_class_partial (fun _ => false) (classes := [(["defs.h".toList], demoLabel)]) (by
    intro c hc
    rw [List.mem_singleton.mp hc]
    exact ⟨by unfold Proper; decide +kernel, rfl⟩)
  refine ⟨codes, h1, h2.trans ?_⟩
  decide +kernel

end Props
