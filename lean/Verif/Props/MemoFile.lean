import Verif.Model.MemoFile
import Verif.Props.Files
/-!
# C160: forms, class libraries and projects are read with their memo files
-/
namespace Props

namespace MemoFileSpec

/-- The file with that name in that folder. -/
def IsIn (path folder name : List Char) : Prop :=
  (path = name ∧ folder = ['.']) ∨ (path = folder ++ '/' :: name ∧ folder ≠ [] ∧ folder.getLast? ≠ some '/')

/-- What stands before the last dot of a name: something that is not only dots. -/
def Stem (s : List Char) : Prop := '/' ∉ s ∧ ∃ c ∈ s, c ≠ '.'

/-- What stands behind it. -/
def Ext (s : List Char) : Prop := '.' ∉ s ∧ '/' ∉ s

/-- The same name but for capital and small letters. -/
def Alike (a b : List Char) : Prop := a.map Char.toLower = b.map Char.toLower

/-- A folder without two files whose names are alike. -/
def Clear (files : List (List Char × List Char)) : Prop := files.Pairwise fun f g => ¬ Alike f.1 g.1

/-- What belongs to a name: the contents of the file whose name is alike, if there is one. -/
def Belongs (files : List (List Char × List Char)) (name : List Char) : Option (List Char) → Prop
  | some m => ∃ e, (e, m) ∈ files ∧ Alike e name
  | none => ∀ f ∈ files, ¬ Alike f.1 name

end MemoFileSpec
open Model.MemoFile MemoFileSpec

namespace MemoFileAux
open Model.Files (basename splitext findIgnoreCase)

theorem path_of {path folder stem ext : List Char} (h : IsIn path folder (stem ++ '.' :: ext)) (hs : Stem stem) (he : Ext ext) :
    basename path = stem ++ '.' :: ext ∧ folderOf path = folder := by
  have hno : ∀ c ∈ (stem ++ '.' :: ext).reverse, decide (c ≠ '/') = true := by
    intro c hc
    rw [List.mem_reverse, List.mem_append, List.mem_cons] at hc
    rw [decide_eq_true_eq]
    rintro rfl
    rcases hc with hc | hc | hc
    · exact hs.1 hc
    · revert hc; decide
    · exact he.2 hc
  rcases h with ⟨rfl, rfl⟩ | ⟨rfl, hne, hl⟩
  · refine ⟨FilesAux.basename_path ⟨rfl, .inl rfl, hs, he⟩, ?_⟩
    have hd : (stem ++ '.' :: ext).reverse.dropWhile (fun c => decide (c ≠ '/')) = [] := by
      generalize (stem ++ '.' :: ext).reverse = l at hno
      induction l with
      | nil => rfl
      | cons a l ih =>
        have hw := List.dropWhile_cons_of_pos (p := fun c => decide (c ≠ '/')) (l := l) (hno a List.mem_cons_self)
        rw [hw, ih fun c hc => hno c (List.mem_cons_of_mem _ hc)]
    rw [folderOf, hd]
    rfl
  · refine ⟨FilesAux.basename_path (dir := folder ++ ['/']) ⟨by simp, .inr (by simp), hs, he⟩, ?_⟩
    have hr : (folder ++ '/' :: (stem ++ '.' :: ext)).reverse = (stem ++ '.' :: ext).reverse ++ '/' :: folder.reverse := by simp
    have hd := (FilesAux.takeWhile_all hno folder.reverse '/' (by decide)).2
    obtain ⟨b, x, rfl⟩ : ∃ b x, folder = b ++ [x] := ⟨_, _, (List.dropLast_concat_getLast hne).symm⟩
    have hx : x ≠ '/' := by simpa using hl
    simp only [folderOf, hr, hd]
    simp [hx]

theorem memo_eq {d : Disk} {path folder stem ext : List Char} (h : IsIn path folder (stem ++ '.' :: ext)) (hs : Stem stem) (he : Ext ext)
    (memo : List Char) : memoName d path memo = findIgnoreCase (stem ++ '.' :: memo) ((d folder).map Prod.fst) := by
  rw [memoName, (path_of h hs he).1, (path_of h hs he).2, FilesAux.splitext_path hs.2 he.1]

theorem content_some {files : List (List Char × List Char)} (hc : Clear files) (n c : List Char) :
    content files n = some c ↔ (n, c) ∈ files := by
  induction files with
  | nil => simp [content]
  | cons f files ih =>
    have hp := List.pairwise_cons.mp hc
    by_cases hf : f.1 = n
    · have : content (f :: files) n = some f.2 := by simp [content, hf]
      rw [this]
      constructor
      · intro h; cases h; rw [← hf]; simp
      · intro h
        rcases List.mem_cons.mp h with rfl | h
        · rfl
        · exact absurd (by rw [hf]; rfl) (hp.1 _ h)
    · have : content (f :: files) n = content files n := by simp [content, hf]
      rw [this, ih hp.2, List.mem_cons]
      constructor
      · exact .inr
      · rintro (rfl | h)
        · exact absurd rfl hf
        · exact h

theorem memo_belongs {files : List (List Char × List Char)} (hc : Clear files) (name : List Char) (m : Option (List Char)) :
    (findIgnoreCase name (files.map Prod.fst)).bind (content files) = m ↔ Belongs files name m := by
  cases hf : findIgnoreCase name (files.map Prod.fst) with
  | none =>
    have hno : ∀ f ∈ files, ¬ Alike f.1 name := by
      intro f hm ha
      exact (List.find?_eq_none.mp hf) f.1 (List.mem_map_of_mem hm) (decide_eq_true ha)
    cases m with
    | none => simpa [Belongs] using hno
    | some m =>
      simp only [Option.bind_none, Belongs, reduceCtorEq, false_iff, not_exists, not_and]
      intro e he; exact hno _ he
  | some e =>
    have hm := List.mem_of_find?_eq_some hf
    obtain ⟨f, hfm, rfl⟩ := List.mem_map.mp hm
    have ha : Alike f.1 name := by
      have h1 : Spec.Files.lower f.1 = Spec.Files.lower name := by simpa using List.find?_some hf
      exact h1
    have hcont : content files f.1 = some f.2 := (content_some hc _ _).mpr hfm
    simp only [Option.bind_some, hcont]
    cases m with
    | none => simp only [reduceCtorEq, Belongs, false_iff]; intro h; exact h f hfm ha
    | some m =>
      simp only [Option.some.injEq, Belongs]
      constructor
      · rintro rfl; exact ⟨f.1, hfm, ha⟩
      · rintro ⟨e, he, hea⟩
        have hsame : content files e = some m := (content_some hc _ _).mpr he
        have : f = (e, m) := by
          rcases Classical.em (f = (e, m)) with h | h
          · exact h
          · exfalso
            have hpw : ∀ a ∈ files, ∀ b ∈ files, a ≠ b → ¬ Alike a.1 b.1 := by
              have : files.Pairwise fun a b => ¬ Alike a.1 b.1 := hc
              intro a haa b hb hab
              exact List.Pairwise.forall_of_forall_of_flip (R := fun a b : List Char × List Char => a ≠ b → ¬ Alike a.1 b.1)
                (by intro a _ h; exact absurd rfl h) (List.Pairwise.imp (fun {a b} h (_ : a ≠ b) => h) this)
                (List.Pairwise.imp (S := fun a b : List Char × List Char => b ≠ a → ¬ Alike b.1 a.1)
                  (fun {a b} h _ h' => h (show a.1.map Char.toLower = b.1.map Char.toLower from Eq.symm h')) this) haa hb hab
            exact hpw f hfm _ he h (ha.trans hea.symm)
        rw [this]

end MemoFileAux
open MemoFileAux

/-- C160: the table is read with the memo file that belongs to its name, whatever the case of the letters of either, or
without one if there is none.  Missing: folders with names that differ only in case (`C160_case_fails`). -/
theorem C160_memo_partial (d : Disk) {path folder stem ext : List Char} (h : IsIn path folder (stem ++ '.' :: ext))
    (hs : Stem stem) (he : Ext ext) (hc : Clear (d folder)) (memo c : List Char) (m : Option (List Char)) :
    copied d path memo = some (c, m) ↔
      (stem ++ '.' :: ext, c) ∈ d folder ∧ Belongs (d folder) (stem ++ '.' :: memo) m := by
  rw [copied, memo_eq h hs he, (path_of h hs he).1, (path_of h hs he).2, ← content_some hc, ← memo_belongs hc]
  cases hcont : content (d folder) (stem ++ '.' :: ext) with
  | none => simp
  | some x => simp

namespace MemoFileDemo

def disk : Disk := fun f =>
  if f = "forms".toList then [("MAIN.SCT".toList, "code".toList), ("main.scx".toList, "table".toList), ("alone.scx".toList, "x".toList)] else []

end MemoFileDemo

/-- A form with a memo file in capital letters, and one without. -/
example : copied MemoFileDemo.disk "forms/main.scx".toList "sct".toList = some ("table".toList, some "code".toList) ∧
    copied MemoFileDemo.disk "forms/alone.scx".toList "sct".toList = some ("x".toList, none) := by decide +kernel

/-- C160 fails where case matters: two tables whose names differ only in case are read with the same memo file, even if
each has its own. -/
theorem C160_case_fails (d : Disk) {path path' folder stem stem' ext : List Char} (h : IsIn path folder (stem ++ '.' :: ext))
    (h' : IsIn path' folder (stem' ++ '.' :: ext)) (hs : Stem stem) (hs' : Stem stem') (he : Ext ext) (ha : Alike stem stem')
    {memo c c' : List Char} {m m' : Option (List Char)} (hm : copied d path memo = some (c, m))
    (hm' : copied d path' memo = some (c', m')) : m = m' := by
  have hl : Model.Files.findIgnoreCase (stem ++ '.' :: memo) ((d folder).map Prod.fst) =
      Model.Files.findIgnoreCase (stem' ++ '.' :: memo) ((d folder).map Prod.fst) := by
    have hlow : Spec.Files.lower (stem ++ '.' :: memo) = Spec.Files.lower (stem' ++ '.' :: memo) := by
      have ha : stem.map Char.toLower = stem'.map Char.toLower := ha
      simp only [Spec.Files.lower, List.map_append, List.map_cons, ha]
    simp only [Model.Files.findIgnoreCase, hlow]
  rw [copied, memo_eq h hs he, (path_of h hs he).1, (path_of h hs he).2] at hm
  rw [copied, memo_eq h' hs' he, (path_of h' hs' he).1, (path_of h' hs' he).2, ← hl] at hm'
  obtain ⟨_, _, e⟩ := Option.map_eq_some_iff.mp hm
  obtain ⟨_, _, e'⟩ := Option.map_eq_some_iff.mp hm'
  exact (congrArg Prod.snd e).symm.trans (congrArg Prod.snd e')

/-- `Main.scx` and `main.scx`: the second is read with the code of the first. -/
example : copied (fun _ => [("Main.scx".toList, "t".toList), ("Main.sct".toList, "m".toList), ("main.scx".toList, "t2".toList),
      ("main.sct".toList, "m2".toList)]) "main.scx".toList "sct".toList = some ("t2".toList, some "m".toList) := by decide +kernel

end Props
