import Verif.Model.Forms
import Verif.Props.TextBlock
/-!
# Forms (C111)
-/
namespace Props.FormsSpec
open Model.Forms (Str Rec)

/-- An object of a form: its name, class, properties, methods and members. -/
inductive Obj where
  | mk (name cls : Str) (props : List (Str × Str)) (methods : List (Str × List Str)) (members : List Obj)

def Obj.name : Obj → Str | .mk n _ _ _ _ => n
def Obj.cls : Obj → Str | .mk _ c _ _ _ => c
def Obj.props : Obj → List (Str × Str) | .mk _ _ p _ _ => p
def Obj.methods : Obj → List (Str × List Str) | .mk _ _ _ m _ => m
def Obj.members : Obj → List Obj | .mk _ _ _ _ ms => ms

/-- The lines in which FoxPro stores properties and methods. -/
def propLines (ps : List (Str × Str)) : List Str := ps.map (fun p => p.1 ++ " = ".toList ++ p.2) ++ [[]]
def methodLines (ms : List (Str × List Str)) : List Str :=
  ms.flatMap (fun m => ("PROCEDURE ".toList ++ m.1) :: m.2 ++ ["ENDPROC".toList]) ++ [[]]

def record (parent : Str) (o : Obj) : Rec :=
  { objname := o.name, cls := o.cls, parent := parent, props := propLines o.props, methods := methodLines o.methods }

mutual
/-- The records of an object: its own and those of its members, whose PARENT is the path to it. -/
def store (parent : Str) : Obj → List Rec
  | .mk n c p m ms =>
    record parent (.mk n c p m ms) :: stores (if parent = [] then n else parent ++ ".".toList ++ n) ms
def stores (parent : Str) : List Obj → List Rec
  | [] => []
  | o :: os => store parent o ++ stores parent os
end

/-- The first and the last record of a form file are comments. -/
def comment : Rec := { objname := [], cls := [], parent := [], props := [[]], methods := [[]] }

/-- The form file: `tops` are the form (or the forms of a form set) and the data environment. -/
def file (tops : List Obj) : List Rec := comment :: stores [] tops ++ [comment]

/-- Colours are stored as three numbers, names of pictures without quotes. -/
def valueText (prop value : Str) : Str :=
  if prop = "Picture".toList then '"' :: value ++ ['"']
  else if prop.drop (prop.length - 5) = "Color".toList then "RGB(".toList ++ value ++ [')']
  else value

def nonblank (ls : List Str) : List Str := ls.filter (· ≠ [])

/-- A member in a class definition, and its methods. -/
def memberSource (o : Obj) : List Str :=
  ("ADD OBJECT ".toList ++ o.name ++ " AS ".toList ++ o.cls) ::
    o.props.map fun p => o.name ++ ['.'] ++ p.1 ++ " = ".toList ++ valueText p.1 p.2
def memberMethods (o : Obj) : List Str :=
  o.methods.flatMap fun m => ("PROCEDURE ".toList ++ o.name ++ ['.'] ++ m.1) :: nonblank m.2 ++ ["ENDPROC".toList]

/-- The class definition that a programmer writes for a form. -/
def classSource (o : Obj) : List Str :=
  ("DEFINE CLASS ".toList ++ o.name ++ " AS ".toList ++ o.cls) ::
    o.props.map (fun p => p.1 ++ " = ".toList ++ valueText p.1 p.2) ++
    o.members.flatMap memberSource ++
    o.methods.flatMap (fun m => ("PROCEDURE ".toList ++ m.1) :: nonblank m.2 ++ ["ENDPROC".toList]) ++
    o.members.flatMap memberMethods ++ ["ENDDEFINE".toList]

/-- Making the form and showing it. -/
def start (f : Str) : List Str :=
  ["local ".toList ++ f, f ++ " = createObject(\"".toList ++ f ++ "\")".toList, f ++ ".show()".toList]

def isClass (c : String) (o : Obj) : Prop := o.cls.map Char.toLower = c.toList

instance (c : String) (o : Obj) : Decidable (isClass c o) := by unfold isClass; infer_instance

/-- A text occurs in another one. -/
def Occurs (t s : Str) : Prop := ∃ a b, s = a ++ t ++ b

/-- The form and the data environment have names of their own, and their members have no members. -/
structure Flat (tops : List Obj) : Prop where
  depth : ∀ t ∈ tops, ∀ m ∈ t.members, m.members = []
  named : ∀ t ∈ tops, t.name ≠ []
  distinct : (tops.map Obj.name).Nodup
  others : ∀ t ∈ tops, ∀ u ∈ tops, ∀ m ∈ u.members, m.name ≠ t.name

/-- There is one form, named `f`. -/
def MainForm (tops : List Obj) (f : Str) : Prop :=
  (∃ t ∈ tops, isClass "form" t ∧ t.name = f) ∧
  (∀ t ∈ tops, (isClass "form" t → t.name = f) ∧ ∀ m ∈ t.members, isClass "form" m → m.name = f)

/-- A property of a member: a name, and a value of one line without ` = ` in it. -/
def PlainProp (p : Str × Str) : Prop :=
  p.1 ≠ [] ∧ (∀ c ∈ p.1, PyVal.isSpace c = false) ∧ (∃ c, p.2.getLast? = some c ∧ PyVal.isSpace c = false) ∧
    ¬ Occurs " = ".toList p.2

def PlainMethod (m : Str × List Str) : Prop :=
  ¬ Occurs "PROCEDURE ".toList m.1 ∧ ∀ l ∈ m.2, ¬ Occurs "PROCEDURE ".toList l

/-- No colours and pictures among the properties. -/
def NoColors (t : Obj) : Prop := ∀ p ∈ t.props, valueText p.1 p.2 = p.2

end Props.FormsSpec

namespace Props.FormsAux
open Model.Forms Props.FormsSpec PyVal

/-! ### Which records are children -/

theorem stores_eq (parent : Str) (os : List Obj) : stores parent os = os.flatMap (store parent) := by
  induction os with
  | nil => rw [stores]; rfl
  | cons o os ih => rw [stores, ih]; rfl

theorem store_leaf {o : Obj} (h : o.members = []) (parent : Str) : store parent o = [record parent o] := by
  cases o with
  | mk n c p m ms =>
    have : ms = [] := h
    subst this
    simp [store, stores]

theorem store_top {t : Obj} (h : ∀ m ∈ t.members, m.members = []) :
    store [] t = record [] t :: t.members.map (record t.name) := by
  cases t with
  | mk n c p m ms =>
    rw [store, stores_eq]
    simp only [if_true]
    congr 1
    have hm : ∀ x ∈ ms, x.members = [] := h
    show ms.flatMap (store n) = ms.map (record n)
    clear h
    induction ms with
    | nil => rfl
    | cons x ms ih =>
      rw [List.flatMap_cons, store_leaf (hm x (by simp)), ih (fun y hy => hm y (by simp [hy]))]
      rfl

def block (t : Obj) : List Rec := record [] t :: t.members.map (record t.name)

theorem file_eq {tops : List Obj} (h : ∀ t ∈ tops, ∀ m ∈ t.members, m.members = []) :
    file tops = comment :: tops.flatMap block ++ [comment] := by
  unfold file
  rw [stores_eq]
  congr 2
  induction tops with
  | nil => rfl
  | cons t tops ih =>
    rw [List.flatMap_cons, List.flatMap_cons, store_top (h t (by simp)), ih (fun u hu => h u (by simp [hu]))]
    rfl

theorem indexOf_first {pre post : List Rec} {r : Rec} (h : ∀ x ∈ pre, x.objname ≠ r.objname) :
    indexOf (pre ++ r :: post) r.objname = some pre.length := by
  unfold indexOf
  rw [List.findIdx?_append, List.findIdx?_eq_none_iff.mpr (by simpa using h)]
  simp [List.findIdx?_cons]

theorem indexOf_name {recs : List Rec} {p : Str} {i : Nat} (h : indexOf recs p = some i) :
    ∃ r, recs[i]? = some r ∧ r.objname = p := by
  unfold indexOf at h
  obtain ⟨hl, hp, _⟩ := List.findIdx?_eq_some_iff_getElem.mp h
  exact ⟨recs[i], List.getElem?_eq_getElem hl, by simpa using hp⟩

theorem mem_block {tops : List Obj} {r : Rec} (h : r ∈ tops.flatMap block) :
    ∃ t ∈ tops, r = record [] t ∨ ∃ m ∈ t.members, r = record t.name m := by
  obtain ⟨t, ht, hr⟩ := List.mem_flatMap.mp h
  refine ⟨t, ht, ?_⟩
  rcases List.mem_cons.mp hr with h | h
  · exact .inl h
  · obtain ⟨m, hm, rfl⟩ := List.mem_map.mp h
    exact .inr ⟨m, hm, rfl⟩

theorem filter_block {t u : Obj} (hn : t.name ≠ []) :
    (block u).filter (fun r => r.parent = t.name) = if u.name = t.name then u.members.map (record u.name) else [] := by
  unfold block
  rw [List.filter_cons]
  have h0 : (decide ((record [] u).parent = t.name)) = false :=
    decide_eq_false fun h : [] = t.name => hn h.symm
  rw [h0]
  simp only [Bool.false_eq_true, if_false, List.filter_map]
  split
  · rename_i h
    congr 1
    exact List.filter_eq_self.mpr fun m _ => by simp [record, h]
  · rename_i h
    have : u.members.filter ((fun r : Rec => decide (r.parent = t.name)) ∘ record u.name) = [] :=
      List.filter_eq_nil_iff.mpr fun m _ => by simp [record, h]
    rw [this]; rfl

theorem filter_blocks {t : Obj} (hn : t.name ≠ []) {us : List Obj} (h : ∀ u ∈ us, u.name ≠ t.name) :
    (us.flatMap block).filter (fun r => r.parent = t.name) = [] := by
  induction us with
  | nil => rfl
  | cons u us ih =>
    rw [List.flatMap_cons, List.filter_append, filter_block hn, if_neg (h u (by simp)),
      ih (fun v hv => h v (by simp [hv]))]
    rfl

theorem children {done rest : List Obj} {t : Obj} (hf : Flat (done ++ t :: rest)) :
    childrenOf (file (done ++ t :: rest)) (comment :: done.flatMap block).length = t.members.map (record t.name) := by
  have hn : t.name ≠ [] := hf.named t (by simp)
  have hd := hf.distinct
  rw [List.map_append, List.map_cons, List.nodup_append] at hd
  have hdone : ∀ u ∈ done, u.name ≠ t.name := fun u hu =>
    hd.2.2 u.name (List.mem_map_of_mem hu) t.name (by simp)
  have hrest : ∀ u ∈ rest, u.name ≠ t.name := fun u hu he =>
    (List.nodup_cons.mp hd.2.1).1 (he ▸ List.mem_map_of_mem hu)
  have hfile := file_eq hf.depth
  have hsplit : file (done ++ t :: rest) =
      (comment :: done.flatMap block) ++ record [] t :: (t.members.map (record t.name) ++ rest.flatMap block ++ [comment]) := by
    rw [hfile, List.flatMap_append, List.flatMap_cons]
    simp [block]
  have hidx : indexOf (file (done ++ t :: rest)) t.name = some (comment :: done.flatMap block).length := by
    rw [hsplit]
    refine indexOf_first (r := record [] t) fun x hx => ?_
    rcases List.mem_cons.mp hx with h | h
    · subst h; exact fun h => hn h.symm
    · obtain ⟨u, hu, h | ⟨m, hm, h⟩⟩ := mem_block h
      · subst h; exact hdone u hu
      · subst h; exact hf.others t (by simp) u (by simp [hu]) m hm
  unfold childrenOf
  have hcongr : (file (done ++ t :: rest)).filter (fun r => r.parent ≠ [] &&
      indexOf (file (done ++ t :: rest)) r.parent = some (comment :: done.flatMap block).length) =
      (file (done ++ t :: rest)).filter (fun r => r.parent = t.name) := by
    refine List.filter_congr fun r _ => ?_
    rw [Bool.eq_iff_iff]
    simp only [Bool.and_eq_true, decide_eq_true_eq, ne_eq]
    constructor
    · rintro ⟨_, h⟩
      obtain ⟨r', hr', he⟩ := indexOf_name h
      rw [hsplit, List.getElem?_append_right (Nat.le_refl _), Nat.sub_self] at hr'
      simp only [List.getElem?_cons_zero, Option.some.injEq] at hr'
      rw [← he, ← hr']; rfl
    · intro h
      rw [h]
      exact ⟨hn, hidx⟩
  rw [hcongr, hfile]
  rw [List.cons_append, List.filter_cons]
  have hc : decide (comment.parent = t.name) = false :=
    decide_eq_false fun h : [] = t.name => hn h.symm
  rw [hc]
  simp only [Bool.false_eq_true, if_false]
  rw [List.filter_append, List.flatMap_append, List.filter_append, List.flatMap_cons, List.filter_append,
    filter_blocks hn hdone, filter_blocks hn hrest, filter_block hn, if_pos rfl]
  rw [List.filter_cons, hc]
  simp

/-! ### The loop over the records -/

/-- The class definitions of the objects of a file. -/
def allLines : List Obj → Option (List Str)
  | [] => some []
  | t :: ts =>
    if isClass "dataenvironment" t then allLines ts
    else
      match classLines (record [] t) (t.members.map (record t.name)), allLines ts with
      | some a, some b => some (a ++ b)
      | _, _ => none

theorem classesFrom_skip (recs : List Rec) (xs rs : List Rec) (h : ∀ r ∈ xs, skipped r = true) : ∀ i : Nat,
    classesFrom recs i (xs ++ rs) = classesFrom recs (i + xs.length) rs := by
  induction xs with
  | nil => intro i; rfl
  | cons x xs ih =>
    intro i
    rw [List.cons_append, classesFrom, if_pos (h x (by simp)), ih (fun r hr => h r (by simp [hr]))]
    congr 1
    simp; omega

theorem skipped_comment : skipped comment = true := rfl

theorem skipped_member {t m : Obj} (hn : t.name ≠ []) : skipped (record t.name m) = true := by
  simp [skipped, record, hn]

theorem skipped_top {t : Obj} (hn : t.name ≠ []) : skipped (record [] t) = true ↔ isClass "dataenvironment" t := by
  simp only [skipped, record, hn, isClass, lower, ne_eq, not_true_eq_false, decide_false, Bool.or_self, Bool.false_or,
    decide_eq_true_eq]
  exact decide_eq_true_iff

theorem classes_loop (ts : List Obj) : ∀ done, Flat (done ++ ts) →
    classesFrom (file (done ++ ts)) (comment :: done.flatMap block).length (ts.flatMap block ++ [comment]) = allLines ts := by
  induction ts with
  | nil =>
    intro done _
    rw [List.flatMap_nil, List.nil_append, classesFrom, if_pos skipped_comment]
    rfl
  | cons t ts ih =>
    intro done hf
    have hn : t.name ≠ [] := hf.named t (by simp)
    have hrest := ih (done ++ [t]) (by simpa using hf)
    have hlen : (comment :: (done ++ [t]).flatMap block).length =
        (comment :: done.flatMap block).length + 1 + (t.members.map (record t.name)).length := by
      simp [block] <;> omega
    have hlist : (t :: ts).flatMap block ++ [comment] =
        record [] t :: (t.members.map (record t.name) ++ (ts.flatMap block ++ [comment])) := by
      simp [block]
    have hmem : ∀ r ∈ t.members.map (record t.name), skipped r = true := by
      intro r hr
      obtain ⟨m, _, rfl⟩ := List.mem_map.mp hr
      exact skipped_member hn
    rw [hlen, List.append_assoc, List.singleton_append] at hrest
    rw [hlist, classesFrom, classesFrom_skip _ _ _ hmem, hrest, children hf, allLines]
    by_cases hc : isClass "dataenvironment" t
    · rw [if_pos ((skipped_top hn).mpr hc), if_pos hc]
    · rw [if_neg (fun h => hc ((skipped_top hn).mp h)), if_neg hc]
      all_goals cases classLines (record [] t) (t.members.map (record t.name)) <;> cases allLines ts <;> rfl

theorem classes_file {tops : List Obj} (hf : Flat tops) :
    classesFrom (file tops) 0 (file tops) = allLines tops := by
  have h := classes_loop tops [] hf
  have hfile := file_eq hf.depth
  have hstep : ∀ rs, classesFrom (file tops) 0 (comment :: rs) = classesFrom (file tops) 1 rs := fun rs => by
    rw [classesFrom, if_pos skipped_comment]
  have : classesFrom (file tops) 0 (file tops) = classesFrom (file tops) 1 (tops.flatMap block ++ [comment]) := by
    rw [← hstep, ← List.cons_append, ← hfile]
  rw [this]
  exact h

theorem parents_file {tops : List Obj} (hf : Flat tops) : parentsKnown (file tops) = true := by
  unfold parentsKnown
  rw [List.all_eq_true]
  intro r hr
  have hmem : ∀ t ∈ tops, record [] t ∈ file tops := by
    intro t ht
    rw [file_eq hf.depth]
    simp only [List.cons_append, List.mem_cons, List.mem_append, List.mem_flatMap]
    exact .inr (.inl ⟨t, ht, by simp [block]⟩)
  have hr' := hr
  rw [file_eq hf.depth] at hr'
  simp only [List.cons_append, List.mem_cons, List.mem_append, List.not_mem_nil, or_false] at hr'
  rcases hr' with h | h | h
  · subst h; rfl
  · obtain ⟨t, ht, h | ⟨m, hm, h⟩⟩ := mem_block h
    · subst h; rfl
    · subst h
      simp only [Bool.or_eq_true]
      right
      unfold indexOf
      rw [List.findIdx?_isSome, List.any_eq_true]
      exact ⟨record [] t, hmem t ht, by simp [record]⟩
  · subst h; rfl

/-! ### The lines of a class -/

theorem occurs_cons {t s : Str} {c : Char} (h : Occurs t s) : Occurs t (c :: s) := by
  obtain ⟨a, b, rfl⟩ := h
  exact ⟨c :: a, b, by simp⟩

theorem splitEq_whole (s : Str) (h : ¬ Occurs " = ".toList s) : ∀ cur, splitEq cur s = [cur ++ s] := by
  induction s with
  | nil => intro cur; simp [splitEq]
  | cons c s ih =>
    intro cur
    have hs : ¬ Occurs " = ".toList s := fun h' => h (occurs_cons h')
    unfold splitEq
    split
    · rename_i s' he
      exact absurd ⟨[], s', by simpa using he⟩ h
    · rename_i c' s' hne he
      injection he with h1 h2
      subst h1 h2
      rw [ih hs]; simp
    · rename_i he; simp at he

theorem splitEq_name {p : Str} (h : ∀ c ∈ p, isSpace c = false) (v : Str) : ∀ cur,
    splitEq cur (p ++ " = ".toList ++ v) = (cur ++ p) :: splitEq [] v := by
  induction p with
  | nil => intro cur; simp [splitEq]
  | cons c p ih =>
    intro cur
    have hc : c ≠ ' ' := by
      rintro rfl
      have := h ' ' (by simp)
      revert this; decide
    have hstep : splitEq cur (c :: (p ++ " = ".toList ++ v)) = splitEq (cur ++ [c]) (p ++ " = ".toList ++ v) := by
      rw [splitEq]
      intro s he
      exact fun h => absurd he hc
    rw [List.cons_append, List.cons_append, hstep, ih (fun x hx => h x (by simp [hx]))]
    simp

theorem strip_line {p v : Str} (hp : p ≠ []) (h : ∀ c ∈ p, isSpace c = false)
    (hv : ∃ c, v.getLast? = some c ∧ isSpace c = false) : strip (p ++ " = ".toList ++ v) = p ++ " = ".toList ++ v := by
  refine TextBlockAux.strip_eq.mpr ⟨fun c hc => ?_, fun c hc => ?_⟩
  · cases p with
    | nil => exact absurd rfl hp
    | cons d p =>
      simp only [List.cons_append, List.head?_cons, Option.some.injEq] at hc
      subst hc
      exact h d (by simp)
  · obtain ⟨d, hd, hs⟩ := hv
    rw [List.getLast?_append, hd] at hc
    simp only [Option.some_or, Option.some.injEq] at hc
    subst hc
    exact hs

theorem memberValue_eq (p v : Str) : memberValue p v = valueText p v := by
  unfold memberValue valueText
  have h : "Color".toList.isSuffixOf p = true ↔ p.drop (p.length - 5) = "Color".toList := by
    rw [List.isSuffixOf_iff_suffix, List.suffix_iff_eq_drop]
    exact eq_comm
  by_cases h1 : p = "Picture".toList
  · rw [if_pos h1, if_pos h1]; rfl
  · rw [if_neg h1, if_neg h1]
    by_cases h2 : p.drop (p.length - 5) = "Color".toList
    · rw [if_pos h2, if_pos (h.mpr h2)]; rfl
    · rw [if_neg h2, if_neg (fun h' => h2 (h.mp h'))]

def lineOf (p : Str × Str) : Str := p.1 ++ " = ".toList ++ p.2
def memberLine (obj : Str) (p : Str × Str) : Str := obj ++ ['.'] ++ p.1 ++ " = ".toList ++ valueText p.1 p.2

theorem memberProps_eq (obj : Str) {ps : List (Str × Str)} (h : ∀ p ∈ ps, PlainProp p) :
    memberProps obj (propLines ps) = some (ps.map (memberLine obj)) := by
  unfold propLines
  induction ps with
  | nil => rfl
  | cons p ps ih =>
    obtain ⟨h1, h2, h3, h4⟩ := h p (by simp)
    rw [List.map_cons, List.cons_append, memberProps, strip_line h1 h2 h3,
      if_neg (by simp [h1]), splitEq_name h2, splitEq_whole _ h4, ih (fun q hq => h q (by simp [hq]))]
    simp only [List.nil_append, Option.map_some, List.map_cons, memberLine, memberValue_eq]
    rfl

theorem members_eq {ms : List Obj} {parent : Str} (h : ∀ m ∈ ms, ∀ p ∈ m.props, PlainProp p) :
    members (ms.map (record parent)) = some (ms.flatMap fun m => memberSource m ++ [[]]) := by
  induction ms with
  | nil => rfl
  | cons m ms ih =>
    rw [List.map_cons, members]
    have hp : memberProps (record parent m).objname (record parent m).props = some (m.props.map (memberLine m.name)) :=
      memberProps_eq m.name (h m (by simp))
    rw [hp, ih (fun x hx => h x (by simp [hx]))]
    simp [record, memberSource, memberLine]

/-! #### `PROCEDURE ` -/

theorem occurs_iff {t : Str} {c : Char} {s : Str} : Occurs t (c :: s) ↔ t.isPrefixOf (c :: s) = true ∨ Occurs t s := by
  constructor
  · rintro ⟨a, b, h⟩
    cases a with
    | nil => left; rw [List.isPrefixOf_iff_prefix]; exact ⟨b, by simpa using h.symm⟩
    | cons d a =>
      right
      rw [List.cons_append, List.cons_append] at h
      injection h with _ h
      exact ⟨a, b, h⟩
  · rintro (h | h)
    · obtain ⟨b, hb⟩ := List.isPrefixOf_iff_prefix.mp h
      exact ⟨[], b, by simpa using hb.symm⟩
    · exact occurs_cons h

theorem sub_length (obj : Str) (s : Str) : ∀ k, s.length ≤ (subFrom obj k s).length := by
  induction s with
  | nil => intro k; simp
  | cons c s ih =>
    intro k
    match k with
    | 0 =>
      rw [subFrom]
      split <;> simp [ih]
    | 1 =>
      rw [subFrom]
      have := ih 0
      simp only [List.cons_append, List.length_cons, List.length_append]; omega
    | k + 2 =>
      rw [subFrom]
      simp [ih]

/-- Within an occurrence, to its end. -/
theorem sub_within (obj : Str) (s : Str) : ∀ k, 0 < k → k ≤ s.length →
    subFrom obj k s = s.take k ++ obj ++ ['.'] ++ subFrom obj 0 (s.drop k) := by
  induction s with
  | nil => intro k h1 h2; simp at h2; omega
  | cons c s ih =>
    intro k h1 h2
    match k, h1 with
    | 1, _ => rw [subFrom]; simp
    | k + 2, _ =>
      rw [subFrom, ih (k + 1) (by omega) (by simp at h2; omega)]
      simp

theorem occurs_length {t s : Str} (h : Occurs t s) : t.length ≤ s.length := by
  obtain ⟨a, b, rfl⟩ := h
  simp only [List.length_append]; omega

theorem pattern_length : pattern.length = 10 := by decide +kernel

/-- A line stays as it is exactly if `PROCEDURE ` does not occur in it. -/
theorem sub_iff (obj s : Str) : subFrom obj 0 s = s ↔ ¬ Occurs pattern s := by
  induction s with
  | nil =>
    simp only [subFrom, true_iff]
    intro h
    have := occurs_length h
    rw [pattern_length] at this
    simp at this
  | cons c s ih =>
    rw [subFrom, occurs_iff]
    split
    · rename_i h
      refine ⟨fun he => ?_, fun hn => absurd (.inl h) hn⟩
      exfalso
      have hl : 9 ≤ s.length := by
        have := (List.isPrefixOf_iff_prefix.mp h).length_le
        rw [pattern_length, List.length_cons] at this
        omega
      have hlen := congrArg List.length he
      rw [sub_within obj s 9 (by omega) hl] at hlen
      have := sub_length obj (s.drop 9) 0
      simp only [List.length_cons, List.length_append, List.length_take, List.length_drop, List.length_nil] at hlen this
      omega
    · rename_i h
      simp only [List.cons.injEq, true_and, ih]
      simp [h]

theorem sub_procedure (obj name : Str) (h : ¬ Occurs pattern name) :
    subFrom obj 0 ("PROCEDURE ".toList ++ name) = "PROCEDURE ".toList ++ obj ++ ['.'] ++ name := by
  have hp : pattern.isPrefixOf ('P' :: ("ROCEDURE ".toList ++ name)) = true :=
    List.isPrefixOf_iff_prefix.mpr ⟨name, rfl⟩
  have : subFrom obj 0 ('P' :: ("ROCEDURE ".toList ++ name)) = 'P' :: subFrom obj 9 ("ROCEDURE ".toList ++ name) := by
    rw [subFrom, if_pos hp]
  show subFrom obj 0 ('P' :: ("ROCEDURE ".toList ++ name)) = _
  rw [this, sub_within _ _ 9 (by omega) (by simp)]
  have hd : ("ROCEDURE ".toList ++ name).drop 9 = name := by simp
  have ht : ("ROCEDURE ".toList ++ name).take 9 = "ROCEDURE ".toList := by simp
  rw [hd, ht, (sub_iff obj name).mpr h]
  simp

theorem methods_eq (obj : Str) {ms : List (Str × List Str)} (h : ∀ m ∈ ms, PlainMethod m) :
    ((methodLines ms).filter (· ≠ [])).map (subFrom obj 0) =
      ms.flatMap fun m => ("PROCEDURE ".toList ++ obj ++ ['.'] ++ m.1) :: nonblank m.2 ++ ["ENDPROC".toList] := by
  unfold methodLines
  rw [List.filter_append, List.map_append]
  have h0 : (([[]] : List Str).filter (· ≠ [])).map (subFrom obj 0) = [] := rfl
  rw [h0, List.append_nil]
  induction ms with
  | nil => rfl
  | cons m ms ih =>
    obtain ⟨h1, h2⟩ := h m (by simp)
    rw [List.flatMap_cons, List.flatMap_cons, List.filter_append, List.map_append, ih (fun x hx => h x (by simp [hx]))]
    congr 1
    have hb : (m.2.filter (· ≠ [])).map (subFrom obj 0) = nonblank m.2 := by
      unfold nonblank
      conv => rhs; rw [← List.map_id (m.2.filter (· ≠ []))]
      refine List.map_congr_left fun l hl => ?_
      exact (sub_iff obj l).mpr (h2 l (List.mem_filter.mp hl).1)
    have he : subFrom obj 0 "ENDPROC".toList = "ENDPROC".toList :=
      (sub_iff obj _).mpr fun h => by
        have := occurs_length h
        rw [pattern_length] at this
        revert this; decide +kernel
    rw [List.cons_append, List.filter_cons, if_pos (by simp), List.filter_append, List.map_cons, List.map_append, hb,
      sub_procedure _ _ h1]
    have hf : ["ENDPROC".toList].filter (· ≠ []) = ["ENDPROC".toList] := rfl
    rw [hf, List.map_cons, he]
    rfl

theorem memberMethods_eq {ms : List Obj} {parent : Str} (h : ∀ m ∈ ms, ∀ p ∈ m.methods, PlainMethod p) :
    Model.Forms.memberMethods (ms.map (record parent)) = ms.flatMap fun m => FormsSpec.memberMethods m ++ [[]] := by
  induction ms with
  | nil => rfl
  | cons m ms ih =>
    rw [List.map_cons, Model.Forms.memberMethods, ih (fun x hx => h x (by simp [hx])), List.flatMap_cons]
    congr 2
    exact methods_eq m.name (h m (by simp))

theorem nonblank_append (a b : List Str) : nonblank (a ++ b) = nonblank a ++ nonblank b := List.filter_append ..

theorem nonblank_same {ls : List Str} (h : ∀ l ∈ ls, l ≠ []) : nonblank ls = ls :=
  List.filter_eq_self.mpr fun l hl => by simp [h l hl]

theorem nonblank_flatMap {α : Type} (f g : α → List Str) (l : List α) (h : ∀ x ∈ l, nonblank (f x) = g x) :
    nonblank (l.flatMap f) = l.flatMap g := by
  induction l with
  | nil => rfl
  | cons x l ih =>
    rw [List.flatMap_cons, nonblank_append, h x (by simp), ih (fun y hy => h y (by simp [hy])), List.flatMap_cons]

theorem nonblank_idem (ls : List Str) : nonblank (nonblank ls) = nonblank ls :=
  nonblank_same fun l hl => by simpa using (List.mem_filter.mp hl).2

/-- What is asked of the members of an object. -/
def GoodMembers (t : Obj) : Prop :=
  (∀ m ∈ t.members, ∀ p ∈ m.props, PlainProp p) ∧ ∀ m ∈ t.members, ∀ p ∈ m.methods, PlainMethod p

theorem nonblank_cons {l : Str} (ls : List Str) (h : l ≠ []) : nonblank (l :: ls) = l :: nonblank ls :=
  List.filter_cons_of_pos (by simp [h])

theorem nonblank_nil (ls : List Str) : nonblank (ls ++ [[]]) = nonblank ls := by
  rw [nonblank_append]; exact List.append_nil _

theorem props_nonblank (ps : List (Str × Str)) : nonblank (propLines ps) = ps.map lineOf := by
  unfold propLines
  rw [nonblank_nil]
  refine nonblank_same fun l hl => ?_
  obtain ⟨p, _, rfl⟩ := List.mem_map.mp hl
  simp

theorem methods_nonblank (ms : List (Str × List Str)) : nonblank (methodLines ms) =
    ms.flatMap fun m => ("PROCEDURE ".toList ++ m.1) :: nonblank m.2 ++ ["ENDPROC".toList] := by
  unfold methodLines
  rw [nonblank_nil]
  refine nonblank_flatMap _ _ _ fun m _ => ?_
  rw [List.cons_append, nonblank_cons _ (by simp), nonblank_append]
  rfl

theorem memberSource_nonblank (m : Obj) : nonblank (memberSource m ++ [[]]) = memberSource m := by
  rw [nonblank_nil]
  refine nonblank_same fun l hl => ?_
  rcases List.mem_cons.mp hl with rfl | h
  · simp
  · obtain ⟨p, _, rfl⟩ := List.mem_map.mp h
    simp

theorem memberMethods_nonblank (m : Obj) :
    nonblank (FormsSpec.memberMethods m ++ [[]]) = FormsSpec.memberMethods m := by
  rw [nonblank_nil]
  refine nonblank_flatMap _ _ _ fun p _ => ?_
  rw [List.cons_append, nonblank_cons _ (by simp), nonblank_append, nonblank_idem]
  rfl

theorem classLines_eq {t : Obj} (hg : GoodMembers t) (hc : NoColors t) :
    ∃ ls, classLines (record [] t) (t.members.map (record t.name)) = some ls ∧ nonblank ls = classSource t := by
  unfold classLines
  rw [members_eq hg.1, memberMethods_eq hg.2]
  refine ⟨_, rfl, ?_⟩
  have hp : t.props.map lineOf = t.props.map fun p => p.1 ++ " = ".toList ++ valueText p.1 p.2 :=
    List.map_congr_left fun p hp => by rw [hc p hp]; rfl
  have hend : nonblank ["ENDDEFINE".toList, []] = ["ENDDEFINE".toList] := rfl
  simp only [List.cons_append, record]
  rw [nonblank_cons _ (by simp)]
  simp only [nonblank_append]
  rw [props_nonblank, methods_nonblank, nonblank_flatMap _ _ _ fun m _ => memberSource_nonblank m,
    nonblank_flatMap _ _ _ fun m _ => memberMethods_nonblank m, hp, hend]
  have h0 : nonblank [([] : Str)] = [] := rfl
  rw [h0, List.append_nil]
  rfl

theorem allLines_eq {tops : List Obj}
    (h : ∀ t ∈ tops, ¬ isClass "dataenvironment" t → GoodMembers t ∧ NoColors t) :
    ∃ ls, allLines tops = some ls ∧
      nonblank ls = (tops.filter fun t => ¬ isClass "dataenvironment" t).flatMap classSource := by
  induction tops with
  | nil => exact ⟨[], rfl, rfl⟩
  | cons t tops ih =>
    obtain ⟨ls, h1, h2⟩ := ih fun u hu => h u (by simp [hu])
    rw [allLines]
    by_cases hc : isClass "dataenvironment" t
    · refine ⟨ls, by rw [if_pos hc, h1], ?_⟩
      rw [List.filter_cons_of_neg (by simp [hc]), h2]
    · obtain ⟨hg, hn⟩ := h t (by simp) hc
      obtain ⟨as, g1, g2⟩ := classLines_eq hg hn
      refine ⟨as ++ ls, by rw [if_neg hc, g1, h1], ?_⟩
      rw [List.filter_cons_of_pos (by simp [hc]), List.flatMap_cons, nonblank_append, g2, h2]

theorem formOf_file {tops : List Obj} (hf : Flat tops) {f : Str} (hm : MainForm tops f) :
    formOf (file tops) = some f := by
  have hmem : ∀ r ∈ file tops, lower r.cls = "form".toList → r.objname = f := by
    intro r hr hc
    rw [file_eq hf.depth] at hr
    simp only [List.cons_append, List.mem_cons, List.mem_append, List.not_mem_nil, or_false] at hr
    have h0 : r ≠ comment := by rintro rfl; revert hc; decide +kernel
    rcases hr with h | h | h
    · exact absurd h h0
    · obtain ⟨t, ht, h | ⟨m, hmm, h⟩⟩ := mem_block h
      · subst h; exact (hm.2 t ht).1 hc
      · subst h; exact (hm.2 t ht).2 m hmm hc
    · exact absurd h h0
  obtain ⟨⟨t, ht, hc, hn⟩, _⟩ := hm
  have hin : record [] t ∈ file tops := by
    rw [file_eq hf.depth]
    simp only [List.cons_append, List.mem_cons, List.mem_append, List.mem_flatMap]
    exact .inr (.inl ⟨t, ht, by simp [block]⟩)
  unfold formOf
  cases hfind : (file tops).reverse.find? fun r => lower r.cls = "form".toList with
  | none =>
    rw [List.find?_eq_none] at hfind
    exact absurd (decide_eq_true hc) (hfind (record [] t) (by simpa using hin))
  | some r =>
    have h1 := List.find?_some hfind
    have h2 := List.mem_of_find?_eq_some hfind
    simp only [Option.map_some, Option.some.injEq]
    exact hmem r (by simpa using h2) (of_decide_eq_true h1)

theorem nonblank_start (f : Str) : nonblank (header f) = start f := by
  refine nonblank_same fun l hl => ?_
  simp only [header, List.mem_cons, List.not_mem_nil, or_false] at hl
  rcases hl with rfl | rfl | rfl <;> simp

/-! ### Lines that end in an exception -/

theorem splitEq_pos (s : Str) : ∀ cur, 1 ≤ (splitEq cur s).length := by
  intro cur
  induction cur, s using splitEq.induct <;> simp_all [splitEq]

theorem splitEq_occurs {s : Str} : ∀ cur, Occurs " = ".toList s → 2 ≤ (splitEq cur s).length := by
  intro cur
  induction cur, s using splitEq.induct with
  | case1 cur s ih =>
    intro _
    have := splitEq_pos s []
    simp only [splitEq, List.length_cons]; omega
  | case2 cur c s hne ih =>
    intro h
    rw [splitEq]
    · refine ih ?_
      rcases occurs_iff.mp h with h' | h'
      · obtain ⟨b, hb⟩ := List.isPrefixOf_iff_prefix.mp h'
        have hb' : ' ' :: '=' :: ' ' :: b = c :: s := hb
        injection hb' with h1 h2
        exact absurd h2.symm (hne b h1.symm)
      · exact h'
    · exact hne
  | case3 cur =>
    intro h
    exact absurd (occurs_length h) (by decide +kernel)

theorem memberProps_none (obj : Str) {ls : List Str} {l : Str} (hl : l ∈ ls) (h1 : strip l ≠ [])
    (h2 : (splitEq [] (strip l)).length ≠ 2) : memberProps obj ls = none := by
  induction ls with
  | nil => simp at hl
  | cons x ls ih =>
    rw [memberProps]
    rcases List.mem_cons.mp hl with rfl | h
    · rw [if_neg h1]
      split
      · rename_i he; rw [he] at h2; exact absurd rfl h2
      · rfl
    · split
      · exact ih h
      · split
        · rw [ih h]; rfl
        · rfl

theorem members_none {rs : List Rec} {r : Rec} (hr : r ∈ rs) (h : memberProps r.objname r.props = none) :
    members rs = none := by
  induction rs with
  | nil => simp at hr
  | cons x rs ih =>
    rw [members]
    rcases List.mem_cons.mp hr with rfl | h'
    · rw [h]
    · rw [ih h']
      cases memberProps x.objname x.props <;> rfl

theorem allLines_none {tops : List Obj} {t : Obj} (ht : t ∈ tops) (hc : ¬ isClass "dataenvironment" t)
    (h : members (t.members.map (record t.name)) = none) : allLines tops = none := by
  have hcl : classLines (record [] t) (t.members.map (record t.name)) = none := by
    unfold classLines; rw [h]; rfl
  induction tops with
  | nil => simp at ht
  | cons u tops ih =>
    rw [allLines]
    rcases List.mem_cons.mp ht with rfl | h'
    · rw [if_neg hc, hcl]
    · rw [ih h']
      split
      · rfl
      · cases classLines (record [] u) (u.members.map (record u.name)) <;> rfl

theorem strip_empty {p : Str} (hp : p ≠ []) (h : ∀ c ∈ p, isSpace c = false) :
    strip (p ++ " = ".toList) = p ++ " =".toList := by
  obtain ⟨d, p, rfl⟩ : ∃ d p', p = d :: p' := by
    cases p with
    | nil => exact absurd rfl hp
    | cons d p => exact ⟨d, p, rfl⟩
  have hd := h d (by simp)
  unfold strip lstrip rstrip
  rw [List.cons_append, List.dropWhile_cons, hd]
  simp only [Bool.false_eq_true, if_false]
  have hr : (d :: (p ++ " = ".toList)).reverse = ' ' :: '=' :: ' ' :: (d :: p).reverse := by simp
  rw [hr]
  have h1 : isSpace ' ' = true := by decide
  have h2 : isSpace '=' = false := by decide
  rw [List.dropWhile_cons, h1, if_pos rfl, List.dropWhile_cons, h2]
  simp

theorem not_occurs_empty {p : Str} (h : ∀ c ∈ p, isSpace c = false) : ¬ Occurs " = ".toList (p ++ " =".toList) := by
  rintro ⟨a, b, he⟩
  -- the only blank is the last but one character
  have hlen := congrArg List.length he
  simp only [List.length_append] at hlen
  have e1 : " = ".toList.length = 3 := by decide +kernel
  have e2 : " =".toList.length = 2 := by decide +kernel
  rw [e1, e2] at hlen
  have h0 : (p ++ " =".toList)[a.length]? = some ' ' := by
    rw [he, List.append_assoc, List.getElem?_append_right (Nat.le_refl _), Nat.sub_self]; rfl
  rw [List.getElem?_append_left (by omega)] at h0
  have := h ' ' (List.mem_of_getElem? h0)
  revert this; decide

/-- The first occurrence of `PROCEDURE ` in a line, behind `a`. -/
theorem sub_first (obj : Str) {a b : Str} (ha : ¬ Occurs pattern (a ++ "PROCEDURE".toList)) (hb : ¬ Occurs pattern b) :
    subFrom obj 0 (a ++ pattern ++ b) = a ++ pattern ++ obj ++ ['.'] ++ b := by
  induction a with
  | nil => exact sub_procedure obj b hb
  | cons c a ih =>
    have hns : ¬ Occurs pattern (a ++ "PROCEDURE".toList) := fun h => ha (occurs_cons h)
    have hp : pattern.isPrefixOf (c :: (a ++ pattern ++ b)) ≠ true := by
      intro hp
      apply ha
      rw [List.cons_append, occurs_iff]
      left
      rw [List.isPrefixOf_iff_prefix] at hp ⊢
      have hpre : c :: (a ++ "PROCEDURE".toList) <+: c :: (a ++ pattern ++ b) :=
        ⟨' ' :: b, by
          have : "PROCEDURE".toList ++ ' ' :: b = pattern ++ b := rfl
          rw [List.cons_append, List.append_assoc, this, List.append_assoc]⟩
      refine List.prefix_of_prefix_length_le hp hpre ?_
      rw [pattern_length]
      have : "PROCEDURE".toList.length = 9 := by decide +kernel
      simp only [List.length_cons, List.length_append, this]; omega
    rw [List.cons_append, List.cons_append, subFrom, if_neg hp, ih hns]
    rfl

/-- The lines of a class are among those of the program. -/
theorem mem_allLines {tops : List Obj} {t : Obj} (ht : t ∈ tops) (hc : ¬ isClass "dataenvironment" t)
    {ls : List Str} (h : allLines tops = some ls) :
    ∃ as, classLines (record [] t) (t.members.map (record t.name)) = some as ∧ ∀ l ∈ as, l ∈ ls := by
  induction tops generalizing ls with
  | nil => simp at ht
  | cons u tops ih =>
    rw [allLines] at h
    rcases List.mem_cons.mp ht with rfl | h'
    · rw [if_neg hc] at h
      split at h
      · rename_i a b h1 h2
        refine ⟨a, h1, fun l hl => ?_⟩
        rw [← Option.some.inj h]; simp [hl]
      · simp at h
    · split at h
      · exact ih h' h
      · split at h
        · rename_i a b h1 h2
          obtain ⟨as, g1, g2⟩ := ih h' h2
          refine ⟨as, g1, fun l hl => ?_⟩
          rw [← Option.some.inj h]; simp [g2 l hl]
        · simp at h

theorem mem_memberMethods {rs : List Rec} {r : Rec} (hr : r ∈ rs) {l : Str} (hl : l ∈ r.methods) (hne : l ≠ []) :
    subFrom r.objname 0 l ∈ Model.Forms.memberMethods rs := by
  induction rs with
  | nil => simp at hr
  | cons x rs ih =>
    rw [Model.Forms.memberMethods]
    rcases List.mem_cons.mp hr with rfl | h
    · simp only [List.mem_append, List.mem_map, List.mem_filter]
      exact .inl (.inl ⟨l, ⟨hl, by simp [hne]⟩, rfl⟩)
    · simp [ih h]

/-- A label and a button on a form, with a data environment. -/
def demoLabel : Obj := .mk "lbl".toList "label".toList [("ForeColor".toList, "255,0,0".toList)] [] []
def demoButton : Obj := .mk "cmd".toList "commandbutton".toList [("Caption".toList, "\"Go\"".toList)]
  [("Click".toList, ["? 1".toList, [], "? 2".toList])] []
def demoForm : Obj := .mk "form1".toList "form".toList [("Caption".toList, "\"Hello\"".toList)]
  [("Init".toList, ["x = 1".toList])] [demoLabel, demoButton]
def demoEnv : Obj := .mk "env".toList "dataenvironment".toList [] [] [.mk "cursor1".toList "cursor".toList [] [] []]

theorem demo_flat : Flat [demoForm, demoEnv] where
  depth := by
    intro t ht
    simp only [List.mem_cons, List.not_mem_nil, or_false] at ht
    rcases ht with rfl | rfl
    · intro m hm
      simp only [demoForm, Obj.members, List.mem_cons, List.not_mem_nil, or_false] at hm
      rcases hm with rfl | rfl <;> rfl
    · intro m hm
      simp only [demoEnv, Obj.members, List.mem_cons, List.not_mem_nil, or_false] at hm
      subst hm; rfl
  named := by
    intro t ht
    simp only [List.mem_cons, List.not_mem_nil, or_false] at ht
    rcases ht with rfl | rfl <;> decide +kernel
  distinct := by decide +kernel
  others := by
    have : ∀ t ∈ [demoForm.name, demoEnv.name], ∀ m ∈ [demoLabel.name, demoButton.name, "cursor1".toList], m ≠ t := by
      decide +kernel
    intro t ht u hu m hm
    simp only [List.mem_cons, List.not_mem_nil, or_false] at ht hu
    refine this t.name (by rcases ht with rfl | rfl <;> simp) m.name ?_
    rcases hu with rfl | rfl
    · simp only [demoForm, Obj.members, List.mem_cons, List.not_mem_nil, or_false] at hm
      rcases hm with rfl | rfl <;> simp
    · simp only [demoEnv, Obj.members, List.mem_cons, List.not_mem_nil, or_false] at hm
      subst hm; simp [Obj.name]

theorem demo_main : MainForm [demoForm, demoEnv] "form1".toList := by
  refine ⟨⟨demoForm, by simp, by decide +kernel, rfl⟩, ?_⟩
  intro t ht
  simp only [List.mem_cons, List.not_mem_nil, or_false] at ht
  have h1 : ¬ isClass "form" demoLabel := by decide +kernel
  have h2 : ¬ isClass "form" demoButton := by decide +kernel
  have h3 : ¬ isClass "form" demoEnv := by decide +kernel
  have h4 : ¬ isClass "form" (.mk "cursor1".toList "cursor".toList [] [] []) := by decide +kernel
  rcases ht with rfl | rfl
  · refine ⟨fun _ => rfl, fun m hm hc => ?_⟩
    simp only [demoForm, Obj.members, List.mem_cons, List.not_mem_nil, or_false] at hm
    rcases hm with rfl | rfl
    · exact absurd hc h1
    · exact absurd hc h2
  · refine ⟨fun h => absurd h h3, fun m hm hc => ?_⟩
    simp only [demoEnv, Obj.members, List.mem_cons, List.not_mem_nil, or_false] at hm
    subst hm
    exact absurd hc h4

def occursB (t : Str) : Str → Bool
  | [] => t.isEmpty
  | c :: s => t.isPrefixOf (c :: s) || occursB t s

theorem not_occurs_of {t s : Str} (h : occursB t s = false) : ¬ Occurs t s := by
  induction s with
  | nil =>
    rintro ⟨a, b, he⟩
    simp only [List.nil_eq_append_iff, List.append_eq_nil_iff] at he
    rw [he.1.2] at h
    simp [occursB] at h
  | cons c s ih =>
    simp only [occursB, Bool.or_eq_false_iff] at h
    rw [occurs_iff]
    rintro (h' | h')
    · rw [h.1] at h'; simp at h'
    · exact ih h.2 h'

/-- A red form with one member. -/
def demoOf (m : Obj) : Obj := .mk "f".toList "form".toList [("BackColor".toList, "255,0,0".toList)] [] [m]

theorem demoOf_flat (m : Obj) (h : m.members = []) (hn : m.name ≠ "f".toList) : Flat [demoOf m] where
  depth := by
    intro t ht x hx
    rw [List.mem_singleton.mp ht] at hx
    rw [List.mem_singleton.mp hx]
    exact h
  named := by
    intro t ht
    rw [List.mem_singleton.mp ht]
    exact List.cons_ne_nil 'f' []
  distinct := by simp
  others := by
    intro t ht u hu x hx
    rw [List.mem_singleton.mp hu] at hx
    rw [List.mem_singleton.mp ht, List.mem_singleton.mp hx]
    exact hn

end Props.FormsAux

namespace Props
open Model.Forms Props.FormsSpec Props.FormsAux PyVal

/-- C111 (partial): a form whose members have no members becomes the program that makes and shows it
and the definitions of the classes, with every member and its properties and methods, up to blank
lines; the data environment is left out.  Missing: members of members (`C111_nested_fails`), forms of
other classes (`C111_class_fails`), other values (`C111_value_fails`), colours and pictures of the form
itself (`C111_color_fails`), and methods with `PROCEDURE ` in a line (`C111_procedure_fails`). -/
theorem C111_form_partial {tops : List Obj} (hf : Flat tops) {f : Str} (hm : MainForm tops f)
    (h : ∀ t ∈ tops, ¬ isClass "dataenvironment" t →
      NoColors t ∧ ∀ m ∈ t.members, (∀ p ∈ m.props, PlainProp p) ∧ ∀ p ∈ m.methods, PlainMethod p) :
    ∃ ls, convertScx (file tops) = some ls ∧
      nonblank ls = start f ++ (tops.filter fun t => ¬ isClass "dataenvironment" t).flatMap classSource := by
  obtain ⟨ls, h1, h2⟩ := allLines_eq (tops := tops) fun t ht hc =>
    ⟨⟨fun m hmm => ((h t ht hc).2 m hmm).1, fun m hmm => ((h t ht hc).2 m hmm).2⟩, (h t ht hc).1⟩
  refine ⟨header f ++ ls, ?_, by rw [nonblank_append, nonblank_start, h2]⟩
  unfold convertScx
  rw [if_pos (parents_file hf), formOf_file hf hm, classes_file hf, h1]

example : ∃ ls, convertScx (file [demoForm, demoEnv]) = some ls ∧
    nonblank ls = start "form1".toList ++ classSource demoForm := by
  have henv : isClass "dataenvironment" demoEnv := by decide +kernel
  have hform : ¬ isClass "dataenvironment" demoForm := by decide +kernel
  have key := C111_form_partial demo_flat (f := "form1".toList) demo_main (by
    intro t ht hc
    simp only [List.mem_cons, List.not_mem_nil, or_false] at ht
    rcases ht with rfl | rfl
    · refine ⟨by unfold NoColors; decide +kernel, fun m hm => ?_⟩
      simp only [demoForm, Obj.members, List.mem_cons, List.not_mem_nil, or_false] at hm
      rcases hm with rfl | rfl
      · refine ⟨fun p hp => ?_, fun p hp => by simp [demoLabel, Obj.methods] at hp⟩
        simp only [demoLabel, Obj.props, List.mem_cons, List.not_mem_nil, or_false] at hp
        subst hp
        exact ⟨by decide +kernel, by decide +kernel, ⟨'0', by decide +kernel, by decide⟩, not_occurs_of (by decide +kernel)⟩
      · refine ⟨fun p hp => ?_, fun p hp => ?_⟩
        · simp only [demoButton, Obj.props, List.mem_cons, List.not_mem_nil, or_false] at hp
          subst hp
          exact ⟨by decide +kernel, by decide +kernel, ⟨'"', by decide +kernel, by decide⟩, not_occurs_of (by decide +kernel)⟩
        · simp only [demoButton, Obj.methods, List.mem_cons, List.not_mem_nil, or_false] at hp
          subst hp
          refine ⟨not_occurs_of (by decide +kernel), fun l hl => ?_⟩
          simp only [List.mem_cons, List.not_mem_nil, or_false] at hl
          rcases hl with rfl | rfl | rfl <;> exact not_occurs_of (by decide +kernel)
    · exact absurd henv hc)
  obtain ⟨ls, h1, h2⟩ := key
  refine ⟨ls, h1, ?_⟩
  rw [h2, List.filter_cons_of_pos (by simp [hform]), List.filter_cons_of_neg (by simp [henv])]
  simp

/-- C111: a form with an object below the second level (a page of a page frame, a column of a grid, a
button in a container) is not converted: the path in PARENT is looked up among the names. -/
theorem C111_nested_fails {tops : List Obj} {t m g : Obj} (ht : t ∈ tops) (hm : m ∈ t.members) (hg : g ∈ m.members)
    (hn : t.name ≠ []) (hdot : ∀ r ∈ file tops, '.' ∉ r.objname) : convertScx (file tops) = none := by
  have hmem : record (t.name ++ ".".toList ++ m.name) g ∈ file tops := by
    have h3 : record (t.name ++ ".".toList ++ m.name) g ∈ store (t.name ++ ".".toList ++ m.name) g := by
      cases g; rw [store]; simp
    have h2 : record (t.name ++ ".".toList ++ m.name) g ∈ store t.name m := by
      cases m with
      | mk n c p ms mm =>
        rw [store, if_neg hn, stores_eq]
        exact List.mem_cons_of_mem _ (List.mem_flatMap.mpr ⟨g, hg, h3⟩)
    have h1 : record (t.name ++ ".".toList ++ m.name) g ∈ store [] t := by
      cases t with
      | mk n c p ms mm =>
        rw [store, if_pos rfl, stores_eq]
        exact List.mem_cons_of_mem _ (List.mem_flatMap.mpr ⟨m, hm, h2⟩)
    unfold file
    rw [stores_eq]
    simp only [List.cons_append, List.mem_cons, List.mem_append, List.mem_flatMap]
    exact .inr (.inl ⟨t, ht, h1⟩)
  unfold convertScx
  rw [if_neg]
  intro hp
  have hr := List.all_eq_true.mp hp _ hmem
  have hpar : (record (t.name ++ ".".toList ++ m.name) g).parent = t.name ++ ".".toList ++ m.name := rfl
  rw [hpar, decide_eq_false (by simp [hn]), Bool.false_or] at hr
  obtain ⟨i, hi⟩ := Option.isSome_iff_exists.mp hr
  obtain ⟨r, hr1, hr2⟩ := indexOf_name hi
  exact hdot r (List.mem_of_getElem? hr1) (by rw [hr2]; simp)

/-- A button on a page of a page frame. -/
example : convertScx (file [.mk "f".toList "form".toList [] [] [.mk "pages".toList "pageframe".toList [] []
    [.mk "cmd".toList "commandbutton".toList [] [] []]]]) = none :=
  C111_nested_fails List.mem_cons_self List.mem_cons_self List.mem_cons_self (by decide +kernel) (by decide +kernel)

/-- C111: a form of a class of the programmer (or any file in which no object has the class Form) is
not converted. -/
theorem C111_class_fails {recs : List Rec} (h : ∀ r ∈ recs, lower r.cls ≠ "form".toList) : convertScx recs = none := by
  have : formOf recs = none := by
    unfold formOf
    rw [List.find?_eq_none.mpr (by simpa using h)]
    rfl
  unfold convertScx
  rw [this]
  split <;> rfl

example : convertScx (file [.mk "f".toList "myform".toList [] [] []]) = none :=
  C111_class_fails (by decide +kernel)

/-- C111: a property of a member without a value, or with a value that has ` = ` in it, ends the
conversion. -/
theorem C111_value_fails {tops : List Obj} (hf : Flat tops) {t m : Obj} (ht : t ∈ tops)
    (hc : ¬ isClass "dataenvironment" t) (hm : m ∈ t.members) {p : Str × Str} (hp : p ∈ m.props) (h1 : p.1 ≠ [])
    (h2 : ∀ c ∈ p.1, isSpace c = false)
    (hv : p.2 = [] ∨ (Occurs " = ".toList p.2 ∧ ∃ c, p.2.getLast? = some c ∧ isSpace c = false)) :
    convertScx (file tops) = none := by
  have hbad : memberProps m.name (propLines m.props) = none := by
    refine memberProps_none m.name (l := lineOf p) ?_ ?_ ?_
    · unfold propLines
      exact List.mem_append_left _ (List.mem_map_of_mem (f := fun p => p.1 ++ " = ".toList ++ p.2) hp)
    · unfold lineOf
      rcases hv with hv | ⟨_, hv⟩
      · rw [hv, List.append_nil, strip_empty h1 h2]; simp
      · rw [strip_line h1 h2 hv]; simp
    · unfold lineOf
      rcases hv with hv | ⟨ho, hv⟩
      · rw [hv, List.append_nil, strip_empty h1 h2, splitEq_whole _ (not_occurs_empty h2)]
        simp
      · rw [strip_line h1 h2 hv, splitEq_name h2, List.length_cons]
        have := splitEq_occurs [] ho
        omega
  have hmem : members (t.members.map (record t.name)) = none :=
    members_none (r := record t.name m) (List.mem_map_of_mem hm) hbad
  unfold convertScx
  rw [classes_file hf, allLines_none ht hc hmem]
  split
  · cases formOf (file tops) <;> rfl
  · rfl

/-- A button with an empty caption. -/
example : convertScx (file [demoOf (.mk "cmd".toList "commandbutton".toList [("Caption".toList, [])] [] [])]) = none :=
  C111_value_fails (demoOf_flat _ rfl (by decide +kernel)) List.mem_cons_self (by unfold isClass; decide +kernel) List.mem_cons_self
    List.mem_cons_self (by decide +kernel) (by decide +kernel) (.inl rfl)

/-- C111: the colours and the picture of the form itself are written as they are stored, where FoxPro
needs `RGB(...)` and quotes. -/
theorem C111_color_fails {tops : List Obj} (hf : Flat tops) {ls : List Str} (h : convertScx (file tops) = some ls)
    {t : Obj} (ht : t ∈ tops) (hc : ¬ isClass "dataenvironment" t) {p : Str × Str} (hp : p ∈ t.props) :
    p.1 ++ " = ".toList ++ p.2 ∈ ls := by
  unfold convertScx at h
  rw [classes_file hf] at h
  split at h
  · split at h
    · rename_i f as _ has
      obtain ⟨cl, g1, g2⟩ := mem_allLines ht hc has
      rw [← Option.some.inj h]
      refine List.mem_append_right _ (g2 _ ?_)
      unfold classLines at g1
      obtain ⟨ms, _, g1⟩ := Option.map_eq_some_iff.mp g1
      rw [← g1]
      have : p.1 ++ " = ".toList ++ p.2 ∈ propLines t.props := by
        unfold propLines
        exact List.mem_append_left _ (List.mem_map_of_mem (f := fun p => p.1 ++ " = ".toList ++ p.2) hp)
      have hp' : p.1 ++ " = ".toList ++ p.2 ∈ (record [] t).props := this
      simp only [List.cons_append, List.mem_cons, List.mem_append]
      exact .inr (.inl (.inl (.inl (.inl (.inl hp')))))
    · simp at h
  · simp at h

example {ls : List Str} (h : convertScx (file [demoOf demoButton]) = some ls) : "BackColor = 255,0,0".toList ∈ ls :=
  C111_color_fails (demoOf_flat _ rfl (by decide +kernel)) h List.mem_cons_self (by unfold isClass; decide +kernel)
    (p := ("BackColor".toList, "255,0,0".toList)) List.mem_cons_self

/-- C111: in the methods of a member every `PROCEDURE ` is taken for the head of a method, also in
SET PROCEDURE TO, in literals and in comments. -/
theorem C111_procedure_fails {tops : List Obj} (hf : Flat tops) {ls : List Str} (h : convertScx (file tops) = some ls)
    {t m : Obj} (ht : t ∈ tops) (hc : ¬ isClass "dataenvironment" t) (hm : m ∈ t.members) {name : Str} {body : List Str}
    (hb : (name, body) ∈ m.methods) {a b : Str} (hl : a ++ "PROCEDURE ".toList ++ b ∈ body)
    (ha : ¬ Occurs "PROCEDURE ".toList (a ++ "PROCEDURE".toList)) (hb' : ¬ Occurs "PROCEDURE ".toList b) :
    a ++ "PROCEDURE ".toList ++ m.name ++ ['.'] ++ b ∈ ls := by
  unfold convertScx at h
  rw [classes_file hf] at h
  split at h
  · split at h
    · rename_i f as _ has
      obtain ⟨cl, g1, g2⟩ := mem_allLines ht hc has
      rw [← Option.some.inj h]
      refine List.mem_append_right _ (g2 _ ?_)
      unfold classLines at g1
      obtain ⟨ms, _, g1⟩ := Option.map_eq_some_iff.mp g1
      rw [← g1]
      have h1 : a ++ "PROCEDURE ".toList ++ b ∈ (record t.name m).methods := by
        show _ ∈ methodLines m.methods
        unfold methodLines
        refine List.mem_append_left _ (List.mem_flatMap.mpr ⟨(name, body), hb, ?_⟩)
        exact List.mem_append_left _ (List.mem_cons_of_mem _ hl)
      have h2 := mem_memberMethods (rs := t.members.map (record t.name)) (List.mem_map_of_mem hm) h1 (by simp)
      have h3 := sub_first m.name ha hb'
      have h4 : subFrom (record t.name m).objname 0 (a ++ "PROCEDURE ".toList ++ b) =
          a ++ "PROCEDURE ".toList ++ m.name ++ ['.'] ++ b := h3
      rw [h4] at h2
      simp only [List.mem_append]
      exact .inl (.inr h2)
    · simp at h
  · simp at h

example {ls : List Str} (h : convertScx (file [demoOf (.mk "cmd".toList "commandbutton".toList []
    [("Click".toList, ["SET PROCEDURE TO lib".toList])] [])]) = some ls) : "SET PROCEDURE cmd.TO lib".toList ∈ ls :=
  C111_procedure_fails (demoOf_flat _ rfl (by decide +kernel)) h List.mem_cons_self (by unfold isClass; decide +kernel)
    List.mem_cons_self (name := "Click".toList) List.mem_cons_self (a := "SET ".toList) (b := "TO lib".toList)
    (by decide +kernel) (not_occurs_of (by decide +kernel)) (not_occurs_of (by decide +kernel))

end Props
