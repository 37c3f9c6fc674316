import Verif.Model.FileCommands
/-!
# C119: commands for files and folders
-/
namespace Props

namespace FileCommandsSpec
open Model.FileCommands (Str Path Node Arg Cmd)

/-- What there is at every path, and the current folder. -/
structure View where
  at_ : Path → Option Node
  cwd : Path

def View.isFolder (v : View) (p : Path) : Prop := p = [] ∨ v.at_ p = some .dir
def View.put (v : View) (p : Path) (n : Option Node) : View := { v with at_ := fun q => if q = p then n else v.at_ q }

/-- The path with small letters only. -/
def small (p : Path) : Path := p.map fun s => s.map Char.toLower

/-- The path that the user wrote. -/
def written : Arg → Path
  | .literal p => p
  | .expr p => p

open Classical in
/-- FoxPro; `none` is an error. -/
noncomputable def fox (key : Path → Path) (v : View) : Cmd → Option View
  | .copyFile a b =>
    match v.at_ (key (written a)) with
    | some (.file c) =>
      if key (written a) ≠ key (written b) ∧ ¬ v.isFolder (key (written b)) ∧ v.isFolder (key (written b)).dropLast then
        some (v.put (key (written b)) (some (.file c)))
      else none
    | _ => none
  | .rename a b =>
    match v.at_ (key (written a)) with
    | some (.file c) =>
      if key (written b) ≠ [] ∧ v.at_ (key (written b)) = none ∧ v.isFolder (key (written b)).dropLast then
        some ((v.put (key (written a)) none).put (key (written b)) (some (.file c)))
      else none
    | _ => none
  | .erase a =>
    match v.at_ (key (written a)) with
    | some (.file _) => some (v.put (key (written a)) none)
    | _ => none
  | .mkdir a =>
    if key (written a) ≠ [] ∧ v.at_ (key (written a)) = none ∧ v.isFolder (key (written a)).dropLast then
      some (v.put (key (written a)) (some .dir))
    else none
  | .rmdir a =>
    if key (written a) ≠ [] ∧ v.at_ (key (written a)) = some .dir ∧
        ¬ ∃ q, q ≠ [] ∧ q.dropLast = key (written a) ∧ (v.at_ q).isSome = true then
      some (v.put (key (written a)) none)
    else none
  | .chdir a => if v.isFolder (key (written a)) then some { v with cwd := key (written a) } else none

/-- The arguments of a command. -/
def args : Cmd → List Arg
  | .copyFile a b => [a, b]
  | .rename a b => [a, b]
  | .erase a => [a]
  | .mkdir a => [a]
  | .rmdir a => [a]
  | .chdir a => [a]

end FileCommandsSpec

namespace FileCommandsAux
open Model.FileCommands FileCommandsSpec
open Py (Dict)

def view (d : Disk) : View := ⟨Dict.get d.nodes, d.cwd⟩

theorem isdir_iff (d : Disk) (p : Path) : d.isdir p = true ↔ (view d).isFolder p := by
  simp [Disk.isdir, View.isFolder, view]

theorem exists_iff (d : Disk) (p : Path) : d.exists_ p = true ↔ ¬ (p ≠ [] ∧ (view d).at_ p = none) := by
  simp only [Disk.exists_, Dict.has, view, Bool.or_eq_true, decide_eq_true_eq, Option.isSome_iff_ne_none]
  by_cases h : p = [] <;> simp [h]

theorem view_set (d : Disk) (p : Path) (n : Node) : view { d with nodes := Dict.set d.nodes p n } = (view d).put p (some n) := by
  simp only [view, View.put, View.mk.injEq, and_true]
  funext q
  rw [Dict.get_set]

theorem view_del (d : Disk) (p : Path) : view { d with nodes := Dict.del d.nodes p } = (view d).put p none := by
  simp only [view, View.put, View.mk.injEq, and_true]
  funext q
  rw [Dict.get_del]

theorem get_key {key : Path → Path} {a : Arg} (h : ∀ p, a = .literal p → key (small p) = key p) : key a.get = key (written a) := by
  cases a with
  | literal p => exact h p rfl
  | expr p => rfl

end FileCommandsAux

open Model.FileCommands FileCommandsSpec FileCommandsAux
open Py (Dict)

/-- C119: a converted command does what FoxPro does, if the system does not distinguish the literal names
from their lower case, and a file is given a name that is not in use.  Missing: names with `*` and `?`. -/
theorem C119_command_partial (key : Path → Path) (d : Disk) (hroot : Dict.get d.nodes [] = none) (c : Cmd)
    (hl : ∀ a ∈ args c, ∀ p, a = .literal p → key (small p) = key p)
    (hr : ∀ a b, c = .rename a b → Dict.get d.nodes (key (written a)) ≠ some .dir ∧
      key (written b) ≠ [] ∧ Dict.get d.nodes (key (written b)) = none) :
    (run key d c).map view = fox key (view d) c := by
  cases c with
  | copyFile a b =>
    have ha := get_key (hl a (by simp [args]))
    have hb := get_key (hl b (by simp [args]))
    rw [run, fox, ha, hb, copyfile]
    show _ = match Dict.get d.nodes (key (written a)) with | some (.file c) => _ | _ => _
    cases hg : Dict.get d.nodes (key (written a)) with
    | none => rfl
    | some n => cases n with
      | dir => rfl
      | file c =>
        simp only
        by_cases h1 : key (written a) = key (written b)
        · rw [if_pos h1, if_neg (fun h => h.1 h1)]; rfl
        · rw [if_neg h1]
          by_cases h2 : d.isdir (key (written b)) = true
          · rw [if_pos h2, if_neg (fun h => h.2.1 ((isdir_iff _ _).mp h2))]; rfl
          · rw [if_neg h2]
            by_cases h3 : d.isdir (key (written b)).dropLast = true
            · rw [if_pos h3, if_pos ⟨h1, fun h => h2 ((isdir_iff _ _).mpr h), (isdir_iff _ _).mp h3⟩, Option.map_some, view_set]
            · rw [if_neg h3, if_neg (fun h => h3 ((isdir_iff _ _).mpr h.2.2))]; rfl
  | rename a b =>
    have ha := get_key (hl a (by simp [args]))
    have hb := get_key (hl b (by simp [args]))
    obtain ⟨r1, r2, r3⟩ := hr a b rfl
    have h2 : ¬ d.isdir (key (written b)) = true := by
      rw [isdir_iff]; intro h
      rcases h with h | h
      · exact r2 h
      · rw [view] at h; simp only at h; rw [r3] at h; cases h
    rw [run, fox, ha, hb, move, if_neg h2, renameTo]
    show _ = match Dict.get d.nodes (key (written a)) with | some (.file c) => _ | _ => _
    cases hg : Dict.get d.nodes (key (written a)) with
    | none => rfl
    | some n => cases n with
      | dir => exact absurd hg r1
      | file c =>
        simp only
        have h1 : key (written a) ≠ key (written b) := by
          intro h; rw [h, r3] at hg; cases hg
        by_cases h3 : d.isdir (key (written b)).dropLast = true
        · rw [if_pos h3, if_neg h1, if_pos ⟨r2, r3, (isdir_iff _ _).mp h3⟩, Option.map_some]
          rw [view_set { d with nodes := Dict.del d.nodes (key (written a)) }, view_del]
        · rw [if_neg h3, if_neg (fun h => h3 ((isdir_iff _ _).mpr h.2.2))]; rfl
  | erase a =>
    have ha := get_key (hl a (by simp [args]))
    rw [run, fox, ha, remove]
    show _ = match Dict.get d.nodes (key (written a)) with | some (.file c) => _ | _ => _
    cases hg : Dict.get d.nodes (key (written a)) with
    | none => rfl
    | some n => cases n with
      | dir => rfl
      | file c =>
        simp only
        rw [if_neg (by intro h; rw [h, hroot] at hg; cases hg), Option.map_some, view_del]
  | mkdir a =>
    have ha := get_key (hl a (by simp [args]))
    rw [run, fox, ha, mkdir]
    by_cases h1 : d.exists_ (key (written a)) = true
    · rw [if_pos h1, if_neg (fun h => (exists_iff _ _).mp h1 ⟨h.1, h.2.1⟩)]; rfl
    · rw [if_neg h1]
      have h1' : key (written a) ≠ [] ∧ (view d).at_ (key (written a)) = none := by
        refine Classical.byContradiction fun h => h1 ((exists_iff _ _).mpr h)
      by_cases h3 : d.isdir (key (written a)).dropLast = true
      · rw [if_pos h3, if_pos ⟨h1'.1, h1'.2, (isdir_iff _ _).mp h3⟩, Option.map_some, view_set]
      · rw [if_neg h3, if_neg (fun h => h3 ((isdir_iff _ _).mpr h.2.2))]; rfl
  | rmdir a =>
    have ha := get_key (hl a (by simp [args]))
    rw [run, fox, ha, rmdir]
    have key_iff : (key (written a) ≠ [] ∧ d.isdir (key (written a)) = true ∧
          ∀ q ∈ Dict.keys d.nodes, q = [] ∨ q.dropLast ≠ key (written a)) ↔
        (key (written a) ≠ [] ∧ (view d).at_ (key (written a)) = some .dir ∧
          ¬ ∃ q, q ≠ [] ∧ q.dropLast = key (written a) ∧ ((view d).at_ q).isSome = true) := by
      constructor
      · rintro ⟨h1, h2, h3⟩
        refine ⟨h1, ((isdir_iff _ _).mp h2).resolve_left h1, ?_⟩
        rintro ⟨q, q1, q2, q3⟩
        rcases h3 q ((Dict.has_iff_mem_keys _ _).mp q3) with h | h
        · exact q1 h
        · exact h q2
      · rintro ⟨h1, h2, h3⟩
        refine ⟨h1, (isdir_iff _ _).mpr (.inr h2), fun q hq => ?_⟩
        by_cases h : q = []
        · exact .inl h
        · exact .inr fun e => h3 ⟨q, h, e, (Dict.has_iff_mem_keys _ _).mpr hq⟩
    by_cases h : key (written a) ≠ [] ∧ d.isdir (key (written a)) = true ∧
          ∀ q ∈ Dict.keys d.nodes, q = [] ∨ q.dropLast ≠ key (written a)
    · rw [if_pos h, if_pos (key_iff.mp h), Option.map_some, view_del]
    · rw [if_neg h, if_neg (fun e => h (key_iff.mpr e))]; rfl
  | chdir a =>
    have ha := get_key (hl a (by simp [args]))
    rw [run, fox, ha, chdir]
    by_cases h : d.isdir (key (written a)) = true
    · rw [if_pos h, if_pos ((isdir_iff _ _).mp h)]; rfl
    · rw [if_neg h, if_neg (fun e => h ((isdir_iff _ _).mpr e))]; rfl

/-- A disk with the folder `data`, the files `data\A.TXT` and `data\B.TXT`. -/
def FileCommandsAux.demo : Disk := ⟨[(["data".toList], .dir), (["data".toList, "a.txt".toList], .file "1".toList),
  (["data".toList, "b.txt".toList], .file "2".toList)], []⟩

example : (run small demo (.rename (.literal ["DATA".toList, "A.TXT".toList]) (.literal ["data".toList, "New.txt".toList]))).map
      (fun d => (Dict.get d.nodes ["data".toList, "a.txt".toList], Dict.get d.nodes ["data".toList, "new.txt".toList])) =
    some (none, some (.file "1".toList)) := by decide +kernel

/-- C119: RENAME to a name in use is an error in FoxPro; the converted command replaces that file. -/
theorem C119_rename_fails (key : Path → Path) (d : Disk) (a b : Path) (c c' : Str)
    (ha : Dict.get d.nodes (key a) = some (.file c)) (hb : Dict.get d.nodes (key b) = some (.file c'))
    (hab : key a ≠ key b) (hroot : key b ≠ []) (hp : d.isdir (key b).dropLast = true) :
    fox key (view d) (.rename (.expr a) (.expr b)) = none ∧
    ∃ d', run key d (.rename (.expr a) (.expr b)) = some d' ∧
      Dict.get d'.nodes (key b) = some (.file c) ∧ Dict.get d'.nodes (key a) = none := by
  constructor
  · show (match Dict.get d.nodes (key a) with | some (.file c) => _ | _ => _) = _
    rw [ha]
    refine if_neg fun h => ?_
    have : Dict.get d.nodes (key b) = none := h.2.1
    rw [hb] at this
    cases this
  · have h2 : ¬ d.isdir (key b) = true := by
      rw [isdir_iff]; intro h
      rcases h with h | h
      · exact hroot h
      · rw [view] at h; simp only at h; rw [hb] at h; cases h
    refine ⟨{ d with nodes := Dict.set (Dict.del d.nodes (key a)) (key b) (.file c) }, ?_, Dict.get_set_self _ _ _, ?_⟩
    · show move d (key a) (key b) = _
      rw [move, if_neg h2, renameTo, ha]
      simp only
      rw [if_pos hp, if_neg hab]
    · show Dict.get (Dict.set (Dict.del d.nodes (key a)) (key b) (.file c)) (key a) = none
      rw [Dict.get_set_ne _ _ hab, Dict.get_del_self]

example : Dict.get demo.nodes ["data".toList, "a.txt".toList] = some (.file "1".toList) ∧
    Dict.get demo.nodes ["data".toList, "b.txt".toList] = some (.file "2".toList) ∧
    demo.isdir ["data".toList] = true := by decide +kernel

/-- C119: where case matters, a literal name with capital letters does not reach the file: ERASE leaves it
alone, in FoxPro it is gone. -/
theorem C119_literal_fails (key : Path → Path) (d : Disk) (p : Path) (c : Str) (hk : key (small p) ≠ key p)
    (hp : Dict.get d.nodes (key p) = some (.file c)) :
    (∀ d', run key d (.erase (.literal p)) = some d' → Dict.get d'.nodes (key p) = some (.file c)) ∧
    ∃ v, fox key (view d) (.erase (.literal p)) = some v ∧ v.at_ (key p) = none := by
  constructor
  · intro d' h
    change remove d (key (small p)) = some d' at h
    rw [remove] at h
    cases hg : Dict.get d.nodes (key (small p)) with
    | none => rw [hg] at h; cases h
    | some n => cases n with
      | dir => rw [hg] at h; cases h
      | file x =>
        rw [hg] at h
        simp only at h
        split at h
        · cases h
        · injection h with h
          subst h
          show Dict.get (Dict.del d.nodes (key (small p))) (key p) = _
          rw [Dict.get_del_ne _ hk.symm, hp]
  · refine ⟨(view d).put (key p) none, ?_, if_pos rfl⟩
    show (match Dict.get d.nodes (key p) with | some (.file _) => _ | _ => _) = _
    rw [hp]; rfl

example : (fun p : Path => p) (small ["Data".toList]) ≠ (fun p : Path => p) ["Data".toList] := by decide +kernel

/-- FoxPro's ERASE with a pattern: the files of the folder whose names match. -/
noncomputable def FileCommandsSpec.eraseAll (matches_ : Str → Str → Prop) (v : View) (folder : Path) (pattern : Str) : View :=
  open Classical in
  { v with at_ := fun q => if q.dropLast = folder ∧ (∃ n c, q.getLast? = some n ∧ matches_ pattern n ∧ v.at_ q = some (.file c))
      then none else v.at_ q }

/-- C119: ERASE with a pattern removes the matching files in FoxPro; the converted command raises an error, as
there is no file with the pattern as its name. -/
theorem C119_pattern_fails (matches_ : Str → Str → Prop) (d : Disk) (folder : Path) (pattern name : Str) (c : Str)
    (hm : matches_ pattern name) (hf : Dict.get d.nodes (folder ++ [name]) = some (.file c))
    (hn : Dict.get d.nodes (folder ++ [pattern]) = none) :
    run id d (.erase (.expr (folder ++ [pattern]))) = none ∧
    (eraseAll matches_ (view d) folder pattern).at_ (folder ++ [name]) = none := by
  constructor
  · show remove d (folder ++ [pattern]) = none
    rw [remove, hn]
  · refine if_pos ⟨by simp, name, c, by simp, hm, hf⟩

example : Dict.get demo.nodes (["data".toList] ++ ["a.txt".toList]) = some (.file "1".toList) ∧
    Dict.get demo.nodes (["data".toList] ++ ["*.txt".toList]) = none := by decide +kernel

end Props
