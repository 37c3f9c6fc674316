import Verif.Model.Objects
import Verif.Props.TextFns
/-!
# CREATEOBJECT (C108)
-/
namespace Props.ObjectsSpec
open Model.Objects (Str Cls World)

/-- The base classes of Visual FoxPro. -/
def foxBase : List String :=
  ["CheckBox", "Collection", "Column", "ComboBox", "CommandButton", "CommandGroup", "Container", "Control",
   "Cursor", "CursorAdapter", "Custom", "DataEnvironment", "EditBox", "Empty", "Exception", "Form", "FormSet",
   "Grid", "Header", "Hyperlink", "Image", "Label", "Line", "ListBox", "OLEBoundControl", "OLEControl",
   "OptionButton", "OptionGroup", "Page", "PageFrame", "ProjectHook", "Relation", "ReportListener", "Separator",
   "Session", "Shape", "Spinner", "TextBox", "Timer", "ToolBar", "XMLAdapter", "XMLField", "XMLTable"]

/-- Names of classes are the same whatever the case of their letters. -/
def Same (a b : Str) : Prop := a.map Char.toLower = b.map Char.toLower

instance (a b : Str) : Decidable (Same a b) := inferInstanceAs (Decidable (_ = _))

/-- The only definition with the name `s` in a program. -/
def DefinedAt (names : List Str) (s : Str) (i : Nat) : Prop :=
  (∃ n, names[i]? = some n ∧ Same n s) ∧ ∀ (j : Nat) n, j ≠ i → names[j]? = some n → ¬ Same n s

def Undefined (names : List Str) (s : Str) : Prop := ∀ n ∈ names, ¬ Same n s

/-- Procedure file `m` is the first one with a definition of the name `s`, and definition `i` in it is the only one. -/
def InLib (libs : List (List Str)) (s : Str) (m i : Nat) : Prop :=
  (∃ l, libs[m]? = some l ∧ DefinedAt l s i) ∧ ∀ (k : Nat) l, k < m → libs[k]? = some l → Undefined l s

/-- The base classes of FoxPro that the run-time library does not have. -/
def missingBase : List String :=
  ["Collection", "Column", "CommandGroup", "Control", "Cursor", "CursorAdapter", "Empty", "Header", "Hyperlink", "Line",
   "OLEBoundControl", "OLEControl", "ProjectHook", "Relation", "ReportListener", "Session", "XMLAdapter", "XMLField",
   "XMLTable"]

/-- The names that a class of a program cannot have: those of the base classes that the run-time
library has (FoxPro forbids these, too), and five more. -/
def reservedNames : List String := ["Array", "C", "F", "M", "S"] ++ foxBase.filter fun b => !missingBase.contains b

/-- The program defines no class with such a name. -/
def Allowed (own : List Str) : Prop := ∀ n ∈ own, ∀ b ∈ reservedNames, ¬ Same n b.toList

/-- The classes of the converter's own extension. -/
def extensions : List String := ["pythontuple", "pythonlist", "pythondictionary"]

/-- Names of classes: no class of the converter's own extension, no expression of the converter. -/
def Plain (s : Str) : Prop := (∀ b ∈ extensions, ¬ Same s b.toList) ∧ ¬ "self.".toList <+: s

instance (own : List Str) : Decidable (Allowed own) := by unfold Allowed; infer_instance

instance (s : Str) : Decidable (Plain s) := by unfold Plain; infer_instance

end Props.ObjectsSpec

namespace Props.ObjectsAux
open Model.Objects PyVal Props.ObjectsSpec Props.TextAux

theorem letter_table : ∀ n : Fin 128,
    (Char.ofNat n).toUpper.toLower = (Char.ofNat n).toLower ∧
    (Char.ofNat n).toLower.toUpper = (Char.ofNat n).toUpper ∧
    (Char.ofNat n).toLower.toLower = (Char.ofNat n).toLower ∧
    (Char.ofNat n).toLower.isAlpha = (Char.ofNat n).isAlpha := by decide +kernel

theorem letter (c : Char) : c.toUpper.toLower = c.toLower ∧ c.toLower.toUpper = c.toUpper ∧
    c.toLower.toLower = c.toLower ∧ c.toLower.isAlpha = c.isAlpha := by
  cases h : c.isAlpha with
  | true =>
    have := letter_table ⟨c.toNat, ascii_of_alpha h⟩
    simp only [Char.ofNat_toNat] at this
    rw [← h]
    exact this
  | false =>
    have h1 := nonalpha_case h
    simp [h1.1, h1.2, h]

theorem title_lower (b : Bool) (s : Str) : titleFrom b (s.map Char.toLower) = titleFrom b s := by
  induction s generalizing b with
  | nil => rfl
  | cons c s ih =>
    have h := letter c
    rw [List.map_cons, titleFrom, titleFrom, h.2.2.2, ih, h.2.1, h.2.2.1]

theorem lower_title (b : Bool) (s : Str) : (titleFrom b s).map Char.toLower = s.map Char.toLower := by
  induction s generalizing b with
  | nil => rfl
  | cons c s ih =>
    have h := letter c
    rw [titleFrom, List.map_cons, List.map_cons, ih]
    cases b
    · simp [h.1]
    · simp [h.2.2.1]

/-- `title` gives the same name exactly for names that differ in case only. -/
theorem title_eq {s t : Str} : title s = title t ↔ Same s t := by
  constructor
  · intro h
    have := congrArg (List.map Char.toLower) h
    rwa [title, title, lower_title, lower_title] at this
  · intro h
    unfold title
    rw [← title_lower false s, h, title_lower]

theorem title_title (s : Str) : title (title s) = title s := title_eq.mpr (lower_title false s)

theorem find_some {names : List Str} {s : Str} {i : Nat} (h : DefinedAt names s i) :
    definition (title s) (names.map title) = some i := by
  obtain ⟨⟨n, hn, hs⟩, h2⟩ := h
  obtain ⟨hl, he⟩ := List.getElem?_eq_some_iff.mp hn
  unfold definition
  have hf : (names.map title).reverse.findIdx? (· = title s) = some (names.length - 1 - i) := by
    rw [List.findIdx?_eq_some_iff_getElem]
    refine ⟨by simp; omega, ?_, fun j hj => ?_⟩
    · have e : names.length - 1 - (names.length - 1 - i) = i := by omega
      simp [List.getElem_reverse, title_eq, e, he, hs]
    · have hk := h2 (names.length - 1 - j) (names[names.length - 1 - j]'(by omega)) (by omega)
        (by simp [show names.length - 1 - j < names.length by omega])
      simpa [title_eq] using hk
  rw [hf, Option.map_some, List.length_map]
  congr 1; omega

theorem only_one {n s : Str} (h : Same n s) : DefinedAt [n] s 0 :=
  ⟨⟨n, rfl, h⟩, fun j m hj hm => by simp [hj] at hm⟩

theorem find_none {names : List Str} {s : Str} :
    definition (title s) (names.map title) = none ↔ Undefined names s := by
  unfold definition
  rw [Option.map_eq_none_iff, List.findIdx?_eq_none_iff]
  simp [Undefined, title_eq]

theorem contains_title {names : List Str} {s : Str} :
    (names.map title).contains (title s) = false ↔ Undefined names s := by
  rw [← find_none, definition, Option.map_eq_none_iff, List.findIdx?_eq_none_iff]
  simp

theorem getClass_none {libs : List (List Str)} {s : Str} (h : ∀ l ∈ libs, Undefined l s) (m : Nat) :
    getClass (title s) m (libs.map (List.map title)) = none := by
  induction libs generalizing m with
  | nil => rfl
  | cons l libs ih =>
    rw [List.map_cons, getClass, find_none.mpr (h l (by simp))]
    exact ih (fun l' hl => h l' (by simp [hl])) _

theorem getClass_some {libs : List (List Str)} {s : Str} {m i : Nat} (h : InLib libs s m i) (k : Nat) :
    getClass (title s) k (libs.map (List.map title)) = some (.lib (k + m) i) := by
  induction libs generalizing m k with
  | nil => obtain ⟨⟨l, hl, _⟩, _⟩ := h; simp at hl
  | cons l libs ih =>
    rw [List.map_cons, getClass]
    cases m with
    | zero =>
      obtain ⟨⟨l', hl, hd⟩, _⟩ := h
      simp only [List.getElem?_cons_zero, Option.some.injEq] at hl
      subst hl
      rw [find_some hd]
      rfl
    | succ m =>
      have hu := h.2 0 l (by omega) rfl
      rw [find_none.mpr hu]
      have := ih (m := m) (by
        obtain ⟨⟨l', hl, hd⟩, h2⟩ := h
        exact ⟨⟨l', by simpa using hl, hd⟩, fun k' l'' hk hl' => h2 (k' + 1) l'' (by omega) (by simpa using hl')⟩) (k + 1)
      rw [show k + (m + 1) = k + 1 + m by omega]
      exact this

/-- The program and the procedure files as converted. -/
def world (own : List Str) (libs : List (List Str)) (com : Str → Bool) : World :=
  ⟨own.map title, libs.map (List.map title), com⟩

/-- CREATEOBJECT in a program that was converted. -/
def create {β : Type} (own : List Str) (libs : List (List Str)) (com : Str → Bool) (n : NameArg)
    (args : List β) : Option (Made β) :=
  (classList own).map fun classes => run (world own libs com) args (convert classes n)

theorem reserved_split :
    (reservedNames.all fun b => isRuntime (title b.toList)) = true ∧
    ((runtimeClasses ++ runtimeOthers).all fun k =>
      reservedNames.any fun b => title b.toList = k) = true := by
  decide +kernel

theorem isRuntime_iff (n : Str) : isRuntime (title n) = true ↔ ∃ b ∈ reservedNames, Same n b.toList := by
  obtain ⟨h1, h2⟩ := reserved_split
  rw [List.all_eq_true] at h1 h2
  constructor
  · intro h
    have hm : title n ∈ runtimeClasses ++ runtimeOthers := by
      unfold isRuntime at h
      rw [Bool.or_eq_true, List.contains_iff_mem, List.contains_iff_mem] at h
      exact List.mem_append.mpr h
    obtain ⟨b, hb, he⟩ := List.any_eq_true.mp (h2 _ hm)
    exact ⟨b, hb, title_eq.mp (of_decide_eq_true he).symm⟩
  · rintro ⟨b, hb, he⟩
    rw [title_eq.mpr he]
    exact h1 b hb

theorem allowed {own : List Str} (h : Allowed own) : ∀ n ∈ own, isRuntime (title n) = false := by
  intro n hn
  cases hr : isRuntime (title n) with
  | false => rfl
  | true =>
    obtain ⟨b, hb, hs⟩ := (isRuntime_iff n).mp hr
    exact absurd hs (h n hn b hb)

theorem plain {s : Str} (h : Plain s) :
    pythonNames.contains (s.map Char.toLower) = false ∧ "self.".toList.isPrefixOf s = false := by
  constructor
  · rw [← Bool.not_eq_true, List.contains_iff_mem]
    intro hm
    simp only [pythonNames, List.mem_cons, List.not_mem_nil, or_false] at hm
    rcases hm with hm | hm | hm
    · exact h.1 "pythontuple" (by decide) (by rw [Same, hm]; decide +kernel)
    · exact h.1 "pythonlist" (by decide) (by rw [Same, hm]; decide +kernel)
    · exact h.1 "pythondictionary" (by decide) (by rw [Same, hm]; decide +kernel)
  · rw [← Bool.not_eq_true, List.isPrefixOf_iff_prefix]
    exact h.2

theorem classList_some {own : List Str} (h : ∀ n ∈ own, isRuntime (title n) = false) :
    classList own = some (own.map title) := by
  have : (own.map title).any isRuntime = false := by
    rw [List.any_eq_false]
    intro t ht
    obtain ⟨n, hn, rfl⟩ := List.mem_map.mp ht
    simp [h n hn]
  simp [classList, this]

theorem objtype_plain {s : Str} (hp : Plain s) : objtype s = title s := by
  have h := plain hp
  unfold objtype
  rw [h.2]
  rfl

theorem contains_of_defined {names : List Str} {s : Str} {i : Nat} (h : DefinedAt names s i) :
    (names.map title).contains (title s) = true := by
  cases hc : (names.map title).contains (title s) with
  | true => rfl
  | false =>
    obtain ⟨⟨n, hn, hs⟩, _⟩ := h
    exact absurd hs (contains_title.mp hc n (List.mem_of_getElem? hn))

end Props.ObjectsAux

namespace Props
open Model.Objects PyVal Props.ObjectsSpec Props.ObjectsAux

variable {β : Type}

/-- C108 (own classes): a class name in quotes, in letters of any case, that the program defines
gives an object of that definition, which gets all the arguments. -/
theorem C108_own {own : List Str} (ha : Allowed own) (libs : List (List Str))
    (com : Str → Bool) {s : Str} (hs : Plain s) {i : Nat} (hd : DefinedAt own s i) (args : List β) :
    create own libs com (.literal s) args = some (.object (.own i) args) := by
  have hr := allowed ha
  have hc := contains_of_defined hd
  simp only [create, classList_some hr, Option.map_some, convert, (plain hs).1, objtype_plain hs, hc, if_true,
    Bool.false_eq_true, if_false, run, world, find_some hd]

/-- The class is defined as `CustomerList` and named as `customerLIST`. -/
example : create ["Order".toList, "CustomerList".toList] [] (fun _ => false) (.literal "customerLIST".toList) [1, 2] =
    some (.object (.own 1) [1, 2]) :=
  C108_own (by decide +kernel) [] _ (by decide +kernel)
    ⟨⟨"CustomerList".toList, rfl, by unfold Same; decide +kernel⟩, by
      intro j n hj hn
      have hlt := (List.getElem?_eq_some_iff.mp hn).1
      simp only [List.length_cons, List.length_nil] at hlt
      have : j = 0 := by omega
      subst this
      simp only [List.getElem?_cons_zero, Option.some.injEq] at hn
      subst hn
      unfold Same
      decide +kernel⟩ _

theorem ObjectsAux.base_split : foxBase.all (fun b =>
    (runtimeClasses.contains (title b.toList) != missingBase.contains b) &&
    (isRuntime (title b.toList) == runtimeClasses.contains (title b.toList))) = true := by
  decide +kernel

theorem ObjectsAux.base_title {s : Str} {b : String} (hb : b ∈ foxBase) (hs : Same s b.toList) :
    runtimeClasses.contains (title s) = !missingBase.contains b ∧ isRuntime (title s) = !missingBase.contains b := by
  have h := List.all_eq_true.mp base_split b hb
  simp only [Bool.and_eq_true, bne_iff_ne, ne_eq, beq_iff_eq] at h
  rw [title_eq.mpr hs, h.2]
  have : runtimeClasses.contains (title b.toList) = !missingBase.contains b := by
    cases h1 : runtimeClasses.contains (title b.toList) <;> cases h2 : missingBase.contains b <;> simp_all
  exact ⟨this, this⟩

/-- C108 (base classes): the same for the classes of FoxPro that the run-time library has, whether the name is
a literal or not.  Missing: the other base classes (`C108_base_fails`). -/
theorem C108_base_partial {own : List Str} (ha : Allowed own) (libs : List (List Str))
    (com : Str → Bool) {s : Str} (hs : Plain s) {b : String} (hb : b ∈ foxBase) (hm : b ∉ missingBase)
    (hsame : Same s b.toList) (args : List β) :
    ∃ c, Same c s ∧ create own libs com (.literal s) args = some (.object (.base c) args) ∧
      create own libs com (.value s) args = some (.object (.base c) args) := by
  have hr := allowed ha
  have hm' : missingBase.contains b = false := by simpa using hm
  obtain ⟨hc, hrt⟩ := base_title hb hsame
  rw [hm', Bool.not_false] at hc hrt
  have hu : (own.map title).contains (title s) = false := by
    rw [contains_title]
    intro n hn hsame
    have := hr n hn
    rw [title_eq.mpr hsame, hrt] at this
    exact absurd this (by simp)
  refine ⟨title s, lower_title _ s, ?_, ?_⟩
  · simp only [create, classList_some hr, Option.map_some, convert, (plain hs).1, objtype_plain hs, hu,
      Bool.false_eq_true, if_false, hrt, if_true, run, callRuntime, hc]
  · simp only [create, classList_some hr, Option.map_some, convert, run, createObject, hrt, if_true,
      callRuntime, hc]

example : ∃ c, Same c "TEXTBOX".toList ∧
    create ["Order".toList] [] (fun _ => false) (.value "TEXTBOX".toList) [7] = some (.object (.base c) [7]) := by
  obtain ⟨c, h1, _, h2⟩ := C108_base_partial (own := ["Order".toList]) (by decide +kernel) [] (fun _ => false)
    (s := "TEXTBOX".toList) (by decide +kernel) (b := "TextBox") (by decide) (by decide) (by decide +kernel) [7]
  exact ⟨c, h1, h2⟩

/-- C108 (procedure files): a class of a procedure file is found in the order of the search list, but
the object does not get the arguments. -/
theorem C108_library_fails {own : List Str} (ha : Allowed own) {libs : List (List Str)}
    (com : Str → Bool) {s : Str} (hs : Plain s) (hb : Allowed [s]) (hu : Undefined own s)
    {m i : Nat} (hl : InLib libs s m i) (args : List β) :
    create own libs com (.literal s) args = some (.object (.lib m i) []) ∧
    create own libs com (.value s) args = some (.object (.lib m i) []) ∧
    (create own libs com (.literal s) args = some (.object (.lib m i) args) ↔ args = []) := by
  have hr := allowed ha
  have hb := allowed hb s (by simp)
  have hn : (own.map title).contains (title s) = false := contains_title.mpr hu
  have hg := getClass_some hl 0
  rw [Nat.zero_add] at hg
  have h1 : create own libs com (.literal s) args = some (.object (.lib m i) []) := by
    simp only [create, classList_some hr, Option.map_some, convert, (plain hs).1, objtype_plain hs, hn,
      Bool.false_eq_true, if_false, hb, run, createObject, title_title, world, hg]
  refine ⟨h1, ?_, ?_⟩
  · simp only [create, classList_some hr, Option.map_some, convert, run, createObject, hb,
      Bool.false_eq_true, if_false, world, hg]
  · rw [h1]
    simp [eq_comm]

example : create [] [["Order".toList]] (fun _ => false) (.literal "order".toList) [7] =
    some (.object (.lib 0 0) []) :=
  (C108_library_fails (by decide +kernel) _ (by decide +kernel) (by decide +kernel) (by simp [Undefined])
    (m := 0) (i := 0) ⟨⟨_, rfl, only_one (by unfold Same; decide +kernel)⟩, by omega⟩ [7]).1

/-- C108: when the name of the class is not a literal, a class that the program itself defines is
not found unless a procedure file defines it too. -/
theorem C108_dynamic_fails {own : List Str} (ha : Allowed own) {libs : List (List Str)}
    {com : Str → Bool} {s : Str} {i : Nat} (hd : DefinedAt own s i) (hu : ∀ l ∈ libs, Undefined l s)
    (hc : ∀ c, Same c s → com c = false) (args : List β) :
    create own libs com (.value s) args = some .raises := by
  have hr := allowed ha
  have hc := hc (title s) (lower_title _ s)
  obtain ⟨⟨n, hn, hsame⟩, _⟩ := hd
  have hb : isRuntime (title s) = false := by
    rw [← title_eq.mpr hsame]; exact hr n (List.mem_of_getElem? hn)
  simp only [create, classList_some hr, Option.map_some, convert, run, createObject, hb, Bool.false_eq_true,
    if_false, world, getClass_none hu 0, hc]

example : create ["Order".toList] [] (fun _ => false) (.value "order".toList) [7] = some .raises :=
  C108_dynamic_fails (by decide +kernel) (i := 0)
    (only_one (n := "Order".toList) (by unfold Same; decide +kernel)) (by simp) (fun _ _ => rfl) [7]

/-- C108: 19 of the base classes cannot be created, in letters of any case, unless the program, a procedure file or
the operating system has a class of the name. -/
theorem C108_base_fails {own : List Str} (ha : Allowed own) {libs : List (List Str)}
    {com : Str → Bool} {s : Str} (hs : Plain s) {b : String} (hb : b ∈ foxBase) (hm : b ∈ missingBase) (hsame : Same s b.toList)
    (hu : Undefined own s) (hl : ∀ l ∈ libs, Undefined l s) (hc : ∀ c, Same c s → com c = false) (args : List β) :
    create own libs com (.literal s) args = some .raises ∧ create own libs com (.value s) args = some .raises := by
  have hr := allowed ha
  have hm' : missingBase.contains b = true := by simpa using hm
  obtain ⟨_, hrt⟩ := base_title hb hsame
  rw [hm', Bool.not_true] at hrt
  have hn : (own.map title).contains (title s) = false := contains_title.mpr hu
  have hc := hc (title s) (lower_title _ s)
  constructor
  · simp only [create, classList_some hr, Option.map_some, convert, (plain hs).1, objtype_plain hs, hn,
      Bool.false_eq_true, if_false, hrt, run, createObject, title_title, world, getClass_none hl 0, hc]
  · simp only [create, classList_some hr, Option.map_some, convert, run, createObject, hrt,
      Bool.false_eq_true, if_false, world, getClass_none hl 0, hc]

example : create [] [] (fun _ => false) (.literal "EMPTY".toList) ([] : List Nat) = some .raises :=
  (C108_base_fails (by decide +kernel) (by decide +kernel) (b := "Empty") (by decide) (by decide) (by decide +kernel) (by simp [Undefined])
    (by simp) (fun _ _ => rfl) []).1

/-- C108 (exact extent): a base class is missing or can be created. -/
theorem C108_base_iff {own : List Str} (ha : Allowed own) {libs : List (List Str)}
    {com : Str → Bool} {s : Str} (hs : Plain s) {b : String} (hb : b ∈ foxBase) (hsame : Same s b.toList)
    (hu : Undefined own s) (hl : ∀ l ∈ libs, Undefined l s) (hc : ∀ c, Same c s → com c = false) (args : List β) :
    (∃ c, Same c s ∧ create own libs com (.literal s) args = some (.object (.base c) args)) ↔ b ∉ missingBase := by
  constructor
  · rintro ⟨c, _, h⟩ hm
    rw [(C108_base_fails ha hs hb hm hsame hu hl hc args).1] at h
    cases h
  · intro hm
    obtain ⟨c, h1, h2, _⟩ := C108_base_partial ha libs com hs hb hm hsame args
    exact ⟨c, h1, h2⟩

example : (∃ c, Same c "listBOX".toList ∧ create [] [] (fun _ => false) (.literal "listBOX".toList) [1] = some (.object (.base c) [1])) :=
  (C108_base_iff (by decide +kernel) (by decide +kernel) (b := "ListBox") (by decide) (by decide +kernel) (by simp [Undefined])
    (by simp) (fun _ _ => rfl) [1]).mpr (by decide)

/-- C108: a class of the operating system named `C`, `F`, `M` or `S` cannot be created: the name is looked up in the
run-time library, where it is no class. -/
theorem C108_letter_fails {own : List Str} (ha : Allowed own) (libs : List (List Str)) (com : Str → Bool) {s : Str}
    {b : String} (hb : b ∈ ["C", "F", "M", "S"]) (hsame : Same s b.toList) (args : List β) :
    create own libs com (.value s) args = some .raises := by
  have h : isRuntime (title s) = true ∧ runtimeClasses.contains (title s) = false := by
    rw [title_eq.mpr hsame]
    simp only [List.mem_cons, List.not_mem_nil, or_false] at hb
    rcases hb with rfl | rfl | rfl | rfl <;> decide +kernel
  simp only [create, classList_some (allowed ha), Option.map_some, convert, run, createObject, h.1, if_true, callRuntime, h.2,
    Bool.false_eq_true, if_false]

example : create [] [] (fun _ => true) (.value "s".toList) [7] = some .raises :=
  C108_letter_fails (by decide +kernel) [] _ (b := "S") (by decide) (by decide +kernel) [7]

/-- C108 (exact extent): a program is not converted exactly if one of its classes has one of these
names, in letters of any case; so classes named `c`, `f`, `m`, `s` and `array` are not possible. -/
theorem C108_reserved_iff (own : List Str) (libs : List (List Str)) (com : Str → Bool) (x : NameArg) (args : List β) :
    create own libs com x args = none ↔ ∃ n ∈ own, ∃ b ∈ reservedNames, Same n b.toList := by
  have h : create own libs com x args = none ↔ (own.map title).any isRuntime = true := by
    unfold create classList
    cases h : (own.map title).any isRuntime <;> simp [h]
  rw [h, List.any_eq_true]
  constructor
  · rintro ⟨t, ht, hr⟩
    obtain ⟨n, hn, rfl⟩ := List.mem_map.mp ht
    exact ⟨n, hn, (isRuntime_iff n).mp hr⟩
  · rintro ⟨n, hn, hb⟩
    exact ⟨title n, List.mem_map.mpr ⟨n, hn, rfl⟩, (isRuntime_iff n).mpr hb⟩

example : create ["Order".toList, "m".toList] [] (fun _ => false) (.literal "order".toList) [7] = none :=
  (C108_reserved_iff _ _ _ _ _).mpr ⟨"m".toList, by simp, "M", by decide +kernel, by unfold Same; decide +kernel⟩

end Props
