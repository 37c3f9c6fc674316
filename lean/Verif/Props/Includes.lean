import Verif.Model.Includes
import Verif.Props.FindFile
/-!
# C159: where `#INCLUDE` looks
-/
namespace Props

namespace IncludesSpec
open FindFileSpec

/-- The first element with the property. -/
inductive First {α : Type} (P : α → Prop) : List α → α → Prop where
  | here {a l} : P a → First P (a :: l) a
  | later {a l b} : ¬ P a → First P l b → First P (a :: l) b

/-- Nothing is below a file. -/
def Proper (files : List (List (List Char))) : Prop := ∀ f ∈ files, ∀ rest, rest ≠ [] → ¬ Has files (f ++ rest)

/-- A file of the project: one that exists, or one that was not found. -/
def ProjectFile (files : List (List (List Char))) : Option (List (List Char)) → Prop
  | none => True
  | some f => f ∈ files

end IncludesSpec
open Model.Includes IncludesSpec
open Model.FindFile PathFnsSpec FindFileSpec FindFileAux
open Model.PathFns (OS)

namespace IncludesAux

theorem which_some (os : OS) (d : Disk) (name : List (List Char)) {ps : List (List (List Char))} {p : List (List Char)}
    (h : First (fun p => (fileAt os d (p ++ name)).isSome = true) ps p) (more : List (Option (List (List Char)))) :
    which os d name (ps.map some ++ more) = p ++ name := by
  induction h with
  | here h => simp only [List.map_cons, List.cons_append, which, h, if_true]
  | later h _ ih => simp only [List.map_cons, List.cons_append, which, h, Bool.false_eq_true, if_false, ih]

theorem which_skip (os : OS) (d : Disk) (name : List (List Char)) {ps more : List (Option (List (List Char)))}
    (h : ∀ p, some p ∈ ps → (fileAt os d (p ++ name)).isSome = false) :
    which os d name (ps ++ more) = which os d name more := by
  induction ps with
  | nil => rfl
  | cons x ps ih =>
    have := ih fun p hp => h p (List.mem_cons_of_mem _ hp)
    cases x with
    | none => simpa only [List.cons_append, which] using this
    | some p => simpa only [List.cons_append, which, h p List.mem_cons_self, Bool.false_eq_true, if_false] using this

theorem first_or {α : Type} (P : α → Prop) [DecidablePred P] (l : List α) : (∃ a, First P l a) ∨ ∀ a ∈ l, ¬ P a := by
  induction l with
  | nil => exact .inr (by simp)
  | cons x l ih =>
    by_cases hx : P x
    · exact .inl ⟨x, .here hx⟩
    · rcases ih with ⟨a, ha⟩ | h
      · exact .inl ⟨a, .later hx ha⟩
      · exact .inr (by intro a ha; rcases List.mem_cons.mp ha with rfl | ha; exact hx; exact h a ha)

theorem first_holds {α : Type} {P : α → Prop} {l : List α} {a : α} (h : First P l a) : P a ∧ a ∈ l := by
  induction h with
  | here h => exact ⟨h, by simp⟩
  | later _ _ ih => exact ⟨ih.1, by simp [ih.2]⟩

theorem first_congr {α : Type} {P Q : α → Prop} (hpq : ∀ a, P a ↔ Q a) {l : List α} {a : α} (h : First P l a) : First Q l a := by
  induction h with
  | here h => exact .here ((hpq _).mp h)
  | later h _ ih => exact .later (fun hq => h ((hpq _).mpr hq)) ih

theorem search_eq (d : Disk) (args : List (List (List Char))) : searchPath d args = (d.cwd :: args).map some := rfl

/-- The file is that of the first folder with one. -/
theorem included_first (os : OS) (d : Disk) (args : List (List (List Char))) (more : List (Option (List (List Char)))) (name : List Char)
    {p : List (List Char)} (h : First (fun p => (fileAt os d (p ++ nameParts os name)).isSome = true) (d.cwd :: args) p) :
    included os d (searchPath d args ++ more) name = fileAt os d (p ++ nameParts os name) := by
  rw [included, search_eq, which_some os d _ h]

theorem included_none (os : OS) (d : Disk) (args : List (List (List Char))) (name : List Char)
    (h : ∀ p ∈ d.cwd :: args, (fileAt os d (p ++ nameParts os name)).isSome = false) :
    included os d (searchPath d args) name = none := by
  have := which_skip os d (nameParts os name) (ps := searchPath d args) (more := []) (by
    intro p hp
    rw [search_eq] at hp
    obtain ⟨q, hq, he⟩ := List.mem_map.mp hp
    cases he
    exact h _ hq)
  rw [included, ← List.append_nil (searchPath d args), this, which]
  simpa using h d.cwd (by simp)

theorem fileAt_windows (d : Disk) (p : List (List Char)) : (fileAt .windows d p).isSome = true ↔ Has d.files p := by
  rw [fileAt, find_some]
  simp only [same_windows, Has]

theorem fileAt_posix (d : Disk) (p : List (List Char)) : fileAt .posix d p = some p ↔ p ∈ d.files := by
  constructor
  · intro h; exact List.mem_of_find?_eq_some h
  · intro h
    rw [fileAt]
    cases hf : d.files.find? (same .posix p) with
    | none => rw [List.find?_eq_none] at hf; exact absurd (by simp [same]) (hf p h)
    | some q => have := List.find?_some hf; simp only [same, decide_eq_true_eq] at this; rw [this]

theorem fileAt_posix' (d : Disk) (p : List (List Char)) : (fileAt .posix d p).isSome = true ↔ p ∈ d.files := by
  rw [fileAt, find_some]
  simp [same]

theorem windows_name {fs : List (List Char)} {n : List Char} (h : ∀ f ∈ fs, IsName f) (hn : IsName n) :
    nameParts .windows (path [] false fs n) = (fs ++ [n]).map (·.map Char.toLower) := by
  have e : path [] false fs n = fs.flatMap (· ++ ['\\']) ++ n := by simp [path, folders]
  have e2 : (fs.flatMap (· ++ ['\\']) ++ n).map Char.toLower =
      (fs.map Model.PathFns.lower).flatMap (· ++ ['\\']) ++ Model.PathFns.lower n := by
    simp only [List.map_append, List.map_flatMap, List.flatMap_map, Model.PathFns.lower]
    congr 1
  rw [nameParts, e, e2, parts_folders (fun f hf => by
    obtain ⟨g, hg, rfl⟩ := List.mem_map.mp hf
    exact name_lower (h g hg)) (name_lower hn)]
  simp [Model.PathFns.lower]

theorem has_lower (d : Disk) (p fs : List (List Char)) : Has d.files (p ++ fs.map (·.map Char.toLower)) ↔ Has d.files (p ++ fs) := by
  simp only [Has, alike_iff, List.map_append, List.map_map]
  have : ((fun x => List.map Char.toLower x) ∘ fun x : List Char => List.map Char.toLower x) = fun x => x.map Char.toLower := by
    funext x; exact map_lower_lower x
  rw [this]

end IncludesAux
open IncludesAux

/-- C159 on Windows: `#INCLUDE` takes the file of that path from the first of the current folder and the folders of the
command line that has one, and the conversion fails if none has.  Missing: the folders of the files of a project
(`C159_project_fails`) and other systems (`C159_case_iff`). -/
theorem C159_folders_partial (d : Disk) (args : List (List (List Char))) {fs : List (List Char)} {n : List Char}
    (h : ∀ f ∈ fs, IsName f) (hn : IsName n) :
    (∀ p, First (fun p => Has d.files (p ++ (fs ++ [n]))) (d.cwd :: args) p →
      ∃ f ∈ d.files, included .windows d (searchPath d args) (path [] false fs n) = some f ∧ Alike f (p ++ (fs ++ [n]))) ∧
    (included .windows d (searchPath d args) (path [] false fs n) = none ↔ ∀ p ∈ d.cwd :: args, ¬ Has d.files (p ++ (fs ++ [n]))) := by
  have hname := windows_name h hn
  have hiff : ∀ p : List (List Char), (fileAt .windows d (p ++ nameParts .windows (path [] false fs n))).isSome = true ↔
      Has d.files (p ++ (fs ++ [n])) := by
    intro p
    rw [hname, fileAt_windows, has_lower]
  have key : ∀ p, First (fun p => Has d.files (p ++ (fs ++ [n]))) (d.cwd :: args) p →
      ∃ f ∈ d.files, included .windows d (searchPath d args) (path [] false fs n) = some f ∧ Alike f (p ++ (fs ++ [n])) := by
    intro p hp
    have hinc := included_first .windows d args [] (path [] false fs n) (first_congr (fun a => (hiff a).symm) hp)
    rw [List.append_nil] at hinc
    obtain ⟨f, hf⟩ := Option.isSome_iff_exists.mp ((hiff p).mpr (first_holds hp).1)
    refine ⟨f, List.mem_of_find?_eq_some hf, hinc.trans hf, ?_⟩
    have := List.find?_some hf
    rw [same_windows, hname] at this
    rw [alike_iff] at this ⊢
    rw [this]
    simp only [List.map_append, List.map_map]
    have e : ((fun x => List.map Char.toLower x) ∘ fun x : List Char => List.map Char.toLower x) = fun x => x.map Char.toLower := by
      funext x; exact map_lower_lower x
    simp only [List.map_cons, List.map_nil, map_lower_lower, e]
  refine ⟨key, fun hnone p hp hhas => ?_, fun hno => ?_⟩
  · have : DecidablePred (fun p => Has d.files (p ++ (fs ++ [n]))) := fun p => Classical.propDecidable _
    rcases first_or (fun p => Has d.files (p ++ (fs ++ [n]))) (d.cwd :: args) with ⟨q, hq⟩ | hq
    · obtain ⟨f, _, hf, _⟩ := key q hq
      rw [hnone] at hf
      cases hf
    · exact hq p hp hhas
  · exact included_none .windows d args _ fun p hp => by
      cases hb : (fileAt .windows d (p ++ nameParts .windows (path [] false fs n))).isSome with
      | false => rfl
      | true => exact absurd ((hiff p).mp hb) (hno p hp)

namespace IncludesDemo

def disk : Disk :=
  { files := [["app".toList, "main.prg".toList], ["App".toList, "Inc".toList, "Consts.h".toList], ["vfp".toList, "FoxPro.h".toList]],
    folders := [], cwd := ["app".toList] }

end IncludesDemo

/-- `#INCLUDE inc\consts.h`, then a header that is in the folder of the command line. -/
example : included .windows IncludesDemo.disk (searchPath IncludesDemo.disk [["vfp".toList]]) "inc\\consts.h".toList =
      some ["App".toList, "Inc".toList, "Consts.h".toList] ∧
    included .windows IncludesDemo.disk (searchPath IncludesDemo.disk [["vfp".toList]]) "foxpro.h".toList =
      some ["vfp".toList, "FoxPro.h".toList] := by decide +kernel

/-- C159 where case matters: the name is taken in small letters, so the file found is the first with such a name; a file
with a capital letter in its name is never found. -/
theorem C159_case_iff (d : Disk) (args : List (List (List Char))) {n : List Char} (hn : IsName n) (f : List (List Char)) :
    included .posix d (searchPath d args) n = some f ↔
      ∃ p, First (fun p => p ++ [n.map Char.toLower] ∈ d.files) (d.cwd :: args) p ∧ f = p ++ [n.map Char.toLower] := by
  have hname : nameParts .posix n = [n.map Char.toLower] := parts_plain (PathFnsAux.Plain.noSep (name_lower hn).1 .posix)
  have hiff : ∀ p : List (List Char), (fileAt .posix d (p ++ nameParts .posix n)).isSome = true ↔ p ++ [n.map Char.toLower] ∈ d.files := by
    intro p; rw [hname, fileAt_posix']
  have key : ∀ p, First (fun p => p ++ [n.map Char.toLower] ∈ d.files) (d.cwd :: args) p →
      included .posix d (searchPath d args) n = some (p ++ [n.map Char.toLower]) := by
    intro p hp
    have hinc := included_first .posix d args [] n (first_congr (fun a => (hiff a).symm) hp)
    rw [List.append_nil, hname] at hinc
    rw [hinc, fileAt_posix]
    exact (first_holds hp).1
  constructor
  · intro h
    rcases first_or (fun p => p ++ [n.map Char.toLower] ∈ d.files) (d.cwd :: args) with ⟨p, hp⟩ | hno
    · refine ⟨p, hp, ?_⟩
      rw [key p hp] at h
      exact (Option.some.inj h).symm
    · rw [included_none .posix d args n (fun p hp => by
        cases hb : (fileAt .posix d (p ++ nameParts .posix n)).isSome with
        | false => rfl
        | true => exact absurd ((hiff p).mp hb) (hno p hp))] at h
      cases h
  · rintro ⟨p, hp, rfl⟩
    exact key p hp

/-- The file is there with just this name, but it is not found. -/
example : ["vfp".toList, "FoxPro.h".toList] ∈ IncludesDemo.disk.files ∧
    included .posix IncludesDemo.disk (searchPath IncludesDemo.disk [["vfp".toList]]) "FoxPro.h".toList = none := by decide +kernel

/-- C159 fails for the headers of a project: the files of the project are added to the folders to be searched, not the
folders they are in, so the project does not help to find any file. -/
theorem C159_project_fails (os : OS) (d : Disk) (hd : Proper d.files) (args : List (List (List Char)))
    (files : List (Option (List (List Char)))) (hf : ∀ f ∈ files, ProjectFile d.files f) (name : List Char) :
    included os d (projectPath d args files) name = included os d (searchPath d args) name := by
  have hno : ∀ f, some f ∈ files → (fileAt os d (f ++ nameParts os name)).isSome = false := by
    intro f hff
    have hfm : f ∈ d.files := hf _ hff
    cases hb : (fileAt os d (f ++ nameParts os name)).isSome with
    | false => rfl
    | true =>
      exfalso
      refine hd f hfm (nameParts os name) (parts_ne _) ?_
      cases os with
      | windows => exact (fileAt_windows d _).mp hb
      | posix =>
        refine ⟨_, (fileAt_posix' d _).mp hb, ?_⟩
        rw [alike_iff]
  have e : which os d (nameParts os name) files = which os d (nameParts os name) [] := by
    have := which_skip os d (nameParts os name) (more := []) hno
    rwa [List.append_nil] at this
  have general : ∀ ps : List (List (List Char)), which os d (nameParts os name) (ps.map some ++ files) =
      which os d (nameParts os name) (ps.map some) := by
    intro ps
    induction ps with
    | nil => exact e
    | cons p ps ih => simp only [List.map_cons, List.cons_append, which, ih]
  rw [included, projectPath, search_eq, general]
  rfl

/-- A program and a header in a project, the header in another folder. -/
example : Proper IncludesDemo.disk.files ∧
    included .windows IncludesDemo.disk (projectPath IncludesDemo.disk []
      [some ["app".toList, "main.prg".toList], some ["App".toList, "Inc".toList, "Consts.h".toList], none]) "consts.h".toList = none := by
  constructor
  · intro f hf rest hr
    simp only [IncludesDemo.disk, List.mem_cons, List.not_mem_nil, or_false] at hf
    rintro ⟨g, hg, ha⟩
    rw [alike_iff] at ha
    have hl := congrArg List.length ha
    have hpos : 0 < rest.length := List.length_pos_iff.mpr hr
    simp only [IncludesDemo.disk, List.mem_cons, List.not_mem_nil, or_false] at hg
    rcases hf with rfl | rfl | rfl <;> rcases hg with rfl | rfl | rfl <;>
      simp only [List.length_map, List.length_append, List.length_cons, List.length_nil] at hl <;>
      first
        | omega
        | (simp only [List.cons_append, List.nil_append, List.map_cons, List.map_nil, List.cons.injEq] at ha; revert ha; decide)
        | (exfalso; have h1 := congrArg (fun l : List (List Char) => l.head?) ha; revert h1; simp; done)
        | (exfalso; have h1 := congrArg (fun l : List (List Char) => l[1]?) ha; revert h1; simp; done)
  · decide +kernel

end Props
