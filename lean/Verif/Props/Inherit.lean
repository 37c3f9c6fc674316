import Verif.Model.Inherit
import Verif.Props.Objects
/-!
# C157: superclasses
-/
namespace Props

namespace InheritSpec
open Model.Inherit (Def World)
open Model.Objects (Str Cls)
open ObjectsSpec

/-- The file that a class is defined in, with the classes it has. -/
inductive InFile (w : World) : Cls → List Def → (Nat → Cls) → Def → Prop where
  | own {i d} : w.own[i]? = some d → InFile w (.own i) w.own .own d
  | lib {m i file d} : w.libs[m]? = some file → file[i]? = some d → InFile w (.lib m i) file (.lib m) d

/-- The names of the classes of a file. -/
def namesOf (file : List Def) : List Str := file.map Def.name

/-- The class that a name stands for in a file, where FoxPro looks for base classes, then for the classes of the file, then
in the procedure files. -/
inductive Means (w : World) (file : List Def) (here : Nat → Cls) (s : Str) : Cls → Prop where
  | base {b t} : b ∈ foxBase → Same s b.toList → Same t b.toList → Means w file here s (.base t)
  | here {i} : DefinedAt (namesOf file) s i → Means w file here s (here i)
  | lib {m i} : Undefined (namesOf file) s → InLib (w.libs.map namesOf) s m i → Means w file here s (.lib m i)

instance (names : List Str) (s : Str) : Decidable (Undefined names s) := by unfold Undefined; infer_instance

/-- A class with all its superclasses, none of which is named with OF. -/
inductive Chain (w : World) : Cls → List Cls → Prop where
  | base (t : Str) : Chain w (.base t) [.base t]
  | step {c file here d p l} : InFile w c file here d → d.file = none → Means w file here d.parent p →
      Chain w p l → Chain w c (c :: l)

/-- The program and all procedure files can be converted. -/
def AllAllowed (w : World) : Prop := Allowed (namesOf w.own) ∧ ∀ file ∈ w.libs, Allowed (namesOf file)

/-- No superclass is a base class that the run-time library does not have. -/
def NoneMissing (w : World) : Prop :=
  ∀ file ∈ w.own :: w.libs, ∀ d ∈ file, ∀ b ∈ missingBase, ¬ Same d.parent b.toList

/-- Base classes are named without regard to the case of letters. -/
def folded : Cls → Cls
  | .base t => .base (t.map Char.toLower)
  | c => c

end InheritSpec
open InheritSpec
open Model.Inherit

namespace InheritAux
open Model.Objects (Str Cls isRuntime runtimeClasses definition getClass)
open PyVal (title)
open ObjectsSpec ObjectsAux

theorem names_eq (file : List Def) : classNames file = (namesOf file).map title := by
  simp [classNames, namesOf]

theorem libs_eq (w : World) : w.libs.map classNames = (w.libs.map namesOf).map (List.map title) := by
  rw [List.map_map]; congr 1; funext file; exact names_eq file

theorem in_file {w : World} {c : Cls} {file : List Def} {here : Nat → Cls} {d : Def} (h : InFile w c file here d) :
    fileOf w c = some file ∧ file[number c]? = some d ∧ (∀ i, beside c i = here i) ∧ file ∈ w.own :: w.libs := by
  cases h with
  | own h => exact ⟨rfl, h, fun _ => rfl, by simp⟩
  | lib h h' => exact ⟨h, h', fun _ => rfl, List.mem_cons_of_mem _ (List.mem_of_getElem? h)⟩

theorem super_eq {w : World} {c : Cls} {file : List Def} {here : Nat → Cls} {d : Def} (h : InFile w c file here d) :
    superOf w c = match superCode (classNames file) d with
      | .runtime t => if runtimeClasses.contains t then some (.base t) else none
      | .own t => (definition t (classNames file)).map here
      | .lookup t => getClass t 0 (w.libs.map classNames) := by
  obtain ⟨h1, h2, h3, _⟩ := in_file h
  unfold superOf
  simp only [h1, h2]
  rw [show beside c = here from funext h3]
  rfl

theorem allowed_file {w : World} (ha : AllAllowed w) {file : List Def} (hf : file ∈ w.own :: w.libs) : Allowed (namesOf file) := by
  rcases List.mem_cons.mp hf with rfl | hf
  · exact ha.1
  · exact ha.2 _ hf

/-- A name that a file defines is no name of the run-time library. -/
theorem not_runtime {file : List Def} (ha : Allowed (namesOf file)) {s : Str} {i : Nat} (h : DefinedAt (namesOf file) s i) :
    isRuntime (title s) = false := by
  obtain ⟨⟨n, hn, hs⟩, _⟩ := h
  rw [← title_eq.mpr hs]
  exact allowed ha n (List.mem_of_getElem? hn)

theorem means_super {w : World} {c : Cls} {file : List Def} {here : Nat → Cls} {d : Def} {p : Cls} (ha : AllAllowed w)
    (hm : ∀ b ∈ missingBase, ¬ Same d.parent b.toList)
    (h : InFile w c file here d) (hp : Means w file here d.parent p) : ∃ q, superOf w c = some q ∧ folded q = folded p := by
  have hf := (in_file h).2.2.2
  rw [super_eq h]
  cases hp with
  | @base b t hb hs ht =>
    have hb' : b ∉ missingBase := fun hx => hm b hx hs
    have hbm : missingBase.contains b = false := by simpa using hb'
    obtain ⟨hc, hrt⟩ := base_title hb hs
    rw [hbm, Bool.not_false] at hc hrt
    refine ⟨.base (title d.parent), ?_, ?_⟩
    · simp only [superCode, hrt, if_true, hc]
    · show Cls.base _ = Cls.base _
      congr 1
      have h1 : Same (title d.parent) d.parent := lower_title _ _
      exact h1.trans (hs.trans ht.symm)
  | @here i hd =>
    have hr := not_runtime (allowed_file ha hf) hd
    refine ⟨here i, ?_, ?_⟩
    · have hc := contains_of_defined hd
      simp only [superCode, hr, Bool.false_eq_true, if_false, names_eq, hc, if_true, find_some hd, Option.map_some]
    · rfl
  | @lib m i hu hl =>
    have hg := getClass_some hl 0
    obtain ⟨⟨l, hl', hd⟩, _⟩ := hl
    obtain ⟨file', hf', rfl⟩ : ∃ file', w.libs[m]? = some file' ∧ namesOf file' = l := by
      simpa using hl'
    have hr := not_runtime (ha.2 _ (List.mem_of_getElem? hf')) hd
    refine ⟨.lib m i, ?_, rfl⟩
    have hc := contains_title.mpr hu
    rw [Nat.zero_add] at hg
    simp only [superCode, hr, Bool.false_eq_true, if_false, names_eq, hc]
    rw [libs_eq, hg]

end InheritAux
open InheritAux
open Model.Objects (Str Cls isRuntime runtimeClasses definition getClass)
open ObjectsSpec ObjectsAux
open PyVal (title)


/-- C157: a class has the superclasses that its definition, the definition of its superclass and so on name, whatever
files they are in, up to a base class.  Missing: superclasses named with OF (`C157_of_iff`) and base classes that the
run-time library does not have (`C157_missing_fails`). -/
theorem C157_chain_partial {w : World} (ha : AllAllowed w) (hm : NoneMissing w) {c : Cls} {l : List Cls}
    (h : Chain w c l) : ∃ l', l'.map folded = l.map folded ∧ ∀ n ≥ l.length, ancestors w n c = some l' := by
  suffices key : ∀ c', folded c' = folded c → ∃ l', l'.map folded = l.map folded ∧ ∀ n ≥ l.length, ancestors w n c' = some l' from
    key c rfl
  induction h with
  | base t =>
    intro c' hc
    cases c' with
    | base t' =>
      refine ⟨[.base t'], by simpa using hc, fun n hn => ?_⟩
      cases n with
      | zero => simp at hn
      | succ n => rfl
    | _ => simp [folded] at hc
  | @step c file here d p l hf _ hp _ ih =>
    intro c' hc
    have hcc : c' = c ∧ ∀ t, c ≠ .base t := by
      cases hf <;> cases c' <;> simp_all [folded]
    obtain ⟨rfl, hb⟩ := hcc
    obtain ⟨q, hq, hqp⟩ := means_super ha (hm file (in_file hf).2.2.2 d (List.mem_of_getElem? (in_file hf).2.1)) hf hp
    obtain ⟨l', hl, hn⟩ := ih q hqp
    refine ⟨c' :: l', by simp [hl], fun n hlen => ?_⟩
    cases n with
    | zero => simp at hlen
    | succ n =>
      cases c' with
      | base t => exact absurd rfl (hb t)
      | _ =>
        simp only [ancestors, hq, hn n (by simpa using hlen), Option.map_some]

namespace InheritDemo

def order : Def := ⟨"order".toList, "DOCUMENT".toList, none⟩
def invoice : Def := ⟨"Invoice".toList, "order".toList, none⟩
def document : Def := ⟨"document".toList, "Printed".toList, none⟩
def printed : Def := ⟨"printed".toList, "CUSTOM".toList, none⟩

/-- Two classes in the program, two in a procedure file, a superclass first named after its class is defined. -/
def w : World := ⟨[invoice, order], [[document, printed]]⟩

theorem chain : Chain w (.own 0) [.own 0, .own 1, .lib 0 0, .lib 0 1, .base "Custom".toList] := by
  refine .step (.own (i := 0) rfl) rfl (.here (i := 1) ⟨⟨_, rfl, rfl⟩, ?_⟩) ?_
  · intro j n hj hn
    match j, hj with
    | 0, _ => cases hn; decide
    | j + 2, _ => simp [namesOf, w] at hn
  refine .step (.own (i := 1) rfl) rfl (.lib (m := 0) (i := 0) (by decide) ⟨⟨_, rfl, ⟨⟨_, rfl, rfl⟩, ?_⟩⟩, by simp⟩) ?_
  · intro j n hj hn
    match j, hj with
    | 1, _ => cases hn; decide
    | j + 2, _ => simp [namesOf] at hn
  refine .step (.lib (m := 0) (i := 0) (file := [document, printed]) rfl rfl) rfl
    (.here (i := 1) ⟨⟨_, rfl, by decide⟩, ?_⟩) ?_
  · intro j n hj hn
    match j, hj with
    | 0, _ => cases hn; decide
    | j + 2, _ => simp [namesOf] at hn
  exact .step (.lib (m := 0) (i := 1) rfl rfl) rfl
    (.base (b := "Custom") (t := "Custom".toList) (by decide) (by decide) (by decide)) (.base _)

theorem none : NoneMissing w := by unfold NoneMissing; decide +kernel

end InheritDemo

example : ∃ l', l'.map folded = [.own 0, .own 1, .lib 0 0, .lib 0 1, .base "custom".toList] ∧
    ∀ n ≥ 5, ancestors InheritDemo.w n (.own 0) = some l' :=
  C157_chain_partial (w := InheritDemo.w) ⟨by decide +kernel, by decide +kernel⟩ InheritDemo.none
    InheritDemo.chain

theorem InheritAux.getClass_earlier {libs : List (List Str)} {s : Str} {k m i : Nat}
    (h : getClass (title s) k (libs.map (List.map title)) = some (.lib m i)) :
    k ≤ m ∧ ∀ j l, k + j < m → libs[j]? = some l → Undefined l s := by
  induction libs generalizing k with
  | nil => simp [getClass] at h
  | cons l libs ih =>
    rw [List.map_cons, getClass] at h
    cases hd : definition (title s) (l.map title) with
    | some x =>
      rw [hd] at h
      simp only [Option.some.injEq, Cls.lib.injEq] at h
      exact ⟨by omega, fun j _ hj => by omega⟩
    | none =>
      rw [hd] at h
      obtain ⟨h1, h2⟩ := ih h
      refine ⟨by omega, fun j l' hj hl => ?_⟩
      cases j with
      | zero => cases hl; exact find_none.mp hd
      | succ j => exact h2 j l' (by omega) hl

/-- C157 (OF): of AS parent OF file the file is dropped.  The class of that file becomes the superclass exactly if the
definition stands in the file itself, or if its own file defines no such class and no procedure file before that one does. -/
theorem C157_of_iff {w : World} (ha : AllAllowed w) {c : Cls} {file : List Def} {here : Nat → Cls} {d : Def}
    (hf : InFile w c file here d) {m i : Nat} {lib : List Def} (hl : w.libs[m]? = some lib)
    (hd : DefinedAt (namesOf lib) d.parent i) :
    superOf w c = some (.lib m i) ↔ (∃ j, c = .lib m j) ∨
      (Undefined (namesOf file) d.parent ∧
        ∀ k l, k < m → w.libs[k]? = some l → Undefined (namesOf l) d.parent) := by
  have hr := not_runtime (ha.2 _ (List.mem_of_getElem? hl)) hd
  rw [super_eq hf]
  simp only [superCode, hr, Bool.false_eq_true, if_false, names_eq, libs_eq]
  cases hc : ((namesOf file).map title).contains (title d.parent) with
  | true =>
    simp only [if_true]
    have hnu : ¬ Undefined (namesOf file) d.parent := fun hu => by rw [contains_title.mpr hu] at hc; cases hc
    cases hf with
    | own h =>
      constructor
      · intro h'
        cases hdd : definition (title d.parent) ((namesOf w.own).map title) <;> rw [hdd] at h' <;> simp at h'
      · rintro (⟨j, hj⟩ | ⟨hu, _⟩)
        · cases hj
        · exact absurd hu hnu
    | @lib m' i' _ _ h h' =>
      constructor
      · intro hx
        cases hdd : definition (title d.parent) ((namesOf file).map title) with
        | none => rw [hdd] at hx; simp at hx
        | some k =>
          rw [hdd] at hx
          simp only [Option.map_some, Option.some.injEq, Cls.lib.injEq] at hx
          exact .inl ⟨i', by rw [hx.1]⟩
      · rintro (⟨j, hj⟩ | ⟨hu, _⟩)
        · cases hj
          rw [h] at hl
          cases hl
          rw [find_some hd]
          rfl
        · exact absurd hu hnu
  | false =>
    simp only [Bool.false_eq_true, if_false]
    have hu := contains_title.mp hc
    constructor
    · intro hg
      refine .inr ⟨hu, fun k l hk hkl => ?_⟩
      exact (getClass_earlier hg).2 k (namesOf l) (by omega) (by simp [hkl])
    · rintro (⟨j, rfl⟩ | ⟨_, hk⟩)
      · cases hf with
        | lib h h' =>
          rw [h] at hl
          cases hl
          obtain ⟨⟨n, hn, hs⟩, _⟩ := hd
          exact absurd hs (hu n (List.mem_of_getElem? hn))
      · have := getClass_some (libs := w.libs.map namesOf) (s := d.parent) (m := m) (i := i)
          ⟨⟨_, by simp [hl], hd⟩, fun k l hkm hkl => by
            obtain ⟨l', h1, rfl⟩ : ∃ l', w.libs[k]? = some l' ∧ namesOf l' = l := by simpa using hkl
            exact hk k l' hkm h1⟩ 0
        simpa using this

/-- DEFINE CLASS report AS document OF second.prg, with a class `document` in the first procedure file as well. -/
example : superOf ⟨[⟨"report".toList, "document".toList, some "second".toList⟩],
    [[InheritDemo.printed], [InheritDemo.document]]⟩ (.own 0) = some (.lib 1 0) :=
  (C157_of_iff ⟨by decide +kernel, by decide +kernel⟩ (.own (i := 0) rfl) (m := 1) (i := 0) (lib := [InheritDemo.document]) rfl
    (only_one (by decide))).mpr (.inr ⟨by decide, fun k l hk hl => by
      match k, hk with
      | 0, _ => cases hl; decide⟩)

example : superOf ⟨[⟨"report".toList, "document".toList, some "second".toList⟩],
    [[⟨"Document".toList, "custom".toList, none⟩], [InheritDemo.document]]⟩ (.own 0) ≠ some (.lib 1 0) := fun h => by
  rcases (C157_of_iff ⟨by decide +kernel, by decide +kernel⟩ (.own (i := 0) rfl) (m := 1) (i := 0) (lib := [InheritDemo.document]) rfl
    (only_one (by decide))).mp h with ⟨j, hj⟩ | ⟨_, hk⟩
  · cases hj
  · exact hk 0 _ (by decide) rfl _ (by simp [namesOf]; rfl) (by decide)

/-- C157 fails for a class that is named like the class it extends in another file: it becomes its own superclass, and
making an object never comes to an end. -/
theorem C157_self_fails {w : World} (ha : AllAllowed w) {i : Nat} {d : Def} (hd : w.own[i]? = some d)
    (hp : Same d.parent d.name) (hone : DefinedAt (namesOf w.own) d.name i) (n : Nat) :
    ancestors w n (.own i) = none := by
  have hone' : DefinedAt (namesOf w.own) d.parent i := by
    obtain ⟨⟨a, h1, h2⟩, h3⟩ := hone
    exact ⟨⟨a, h1, h2.trans hp.symm⟩, fun j b hj hb hs => h3 j b hj hb (hs.trans hp)⟩
  have hs : superOf w (.own i) = some (.own i) := by
    have hr := not_runtime ha.1 hone'
    rw [super_eq (.own hd)]
    simp only [superCode, hr, Bool.false_eq_true, if_false, names_eq, contains_of_defined hone', if_true,
      find_some hone', Option.map_some]
  induction n with
  | zero => rfl
  | succ n ih => simp only [ancestors, hs, ih, Option.map_none]

/-- DEFINE CLASS Document AS document OF lib.prg -/
example : ancestors ⟨[⟨"Document".toList, "document".toList, some "lib".toList⟩], [[InheritDemo.document]]⟩ 1000 (.own 0) =
    none :=
  C157_self_fails (w := ⟨[⟨"Document".toList, "document".toList, some "lib".toList⟩], [[InheritDemo.document]]⟩)
    ⟨by decide +kernel, by decide +kernel⟩ (i := 0) (d := ⟨"Document".toList, "document".toList, some "lib".toList⟩) rfl (by decide) (only_one (by decide)) 1000

/-- C157 fails for the base classes that the run-time library does not have: no object of such a class can be made. -/
theorem C157_missing_fails {w : World} {c : Cls} {file : List Def} {here : Nat → Cls} {d : Def}
    (hf : InFile w c file here d) {b : String} (hb : b ∈ missingBase) (hs : Same d.parent b.toList)
    (hu : ∀ f ∈ w.own :: w.libs, Undefined (namesOf f) d.parent) (n : Nat) : ancestors w n c = none := by
  have hfb : ∀ b ∈ missingBase, b ∈ foxBase := by decide
  have hr := (base_title (hfb b hb) hs).2
  rw [List.contains_iff_mem.mpr hb, Bool.not_true] at hr
  have hsup : superOf w c = none := by
    rw [super_eq hf]
    simp only [superCode, hr, Bool.false_eq_true, if_false, names_eq, contains_title.mpr (hu file (in_file hf).2.2.2), libs_eq]
    exact getClass_none (fun l hl => by
      obtain ⟨f, hf, rfl⟩ := List.mem_map.mp hl
      exact hu f (List.mem_cons_of_mem _ hf)) 0
  cases n with
  | zero => rfl
  | succ n => cases hf <;> simp only [ancestors, hsup]

/-- DEFINE CLASS orders AS Collection -/
example : ancestors ⟨[⟨"orders".toList, "Collection".toList, none⟩], []⟩ 1000 (.own 0) = none :=
  C157_missing_fails (.own rfl) (b := "Collection") (by decide) (by decide) (by decide) 1000

end Props
