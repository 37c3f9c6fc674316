import Verif.Model.FindFile
import Verif.Props.PathFns
/-!
# C155: FILE, DIRECTORY and LOCFILE
-/
namespace Props

namespace FindFileSpec
open PathFnsSpec

/-- A name of a file or a folder. -/
def IsName (s : List Char) : Prop := Plain s ∧ s ≠ [] ∧ s ≠ ['.']

/-- The same path but for capital and small letters, which FoxPro does not distinguish. -/
def Alike : List (List Char) → List (List Char) → Prop
  | [], [] => True
  | a :: as, b :: bs => a.map Char.toLower = b.map Char.toLower ∧ Alike as bs
  | _, _ => False

/-- There is a file (or folder) at the place. -/
def Has (all : List (List (List Char))) (place : List (List Char)) : Prop := ∃ f ∈ all, Alike f place

/-- Where `folder\...\name` is, from the root or from the current folder. -/
def place (cwd : List (List Char)) (root : Bool) (fs : List (List Char)) (n : List Char) : List (List Char) :=
  if root then fs ++ [n] else cwd ++ fs ++ [n]

/-- FoxPro finds a file by its name in the current folder and in those of SET PATH. -/
def Finds (all : List (List (List Char))) (cwd : List (List Char)) (setPath : List (List (List Char))) (n : List Char) : Prop :=
  Has all (cwd ++ [n]) ∨ ∃ p ∈ setPath, Has all (p ++ [n])

/-- How a folder is written from the root, with a separator. -/
def written (q : Char) (folder : List (List Char)) : List Char :=
  match folder with
  | [] => [q]
  | folder => folder.flatMap (q :: ·)

end FindFileSpec

namespace FindFileAux
open Model.FindFile Model.PathFns PathFnsSpec PathFnsAux FindFileSpec

theorem lower_lower_char (c : Char) : c.toLower.toLower = c.toLower := by
  by_cases h : c.toNat < 128
  · have table : ∀ n : Fin 128, (Char.ofNat n).toLower.toLower = (Char.ofNat n).toLower := by decide
    have := table ⟨c.toNat, h⟩
    simpa [Char.ofNat_toNat] using this
  · have : c.toLower = c := by
      unfold Char.toLower
      split
      · rename_i hc
        have h2 : c.val.toNat ≤ 90 := hc.2
        have h3 : ¬ c.val.toNat < 128 := h
        omega
      · rfl
    rw [this, this]

theorem map_lower_lower (s : List Char) : (s.map Char.toLower).map Char.toLower = s.map Char.toLower := by
  simp [lower_lower_char]

theorem alike_iff (a b : List (List Char)) : Alike a b ↔ a.map (·.map Char.toLower) = b.map (·.map Char.toLower) := by
  induction a generalizing b with
  | nil => cases b <;> simp [Alike]
  | cons x a ih =>
    cases b with
    | nil => simp [Alike]
    | cons y b => simp only [Alike, List.map_cons, List.cons.injEq, ih]

theorem parts_plain {os : OS} {n : Str} (h : ∀ c ∈ n, isSep os c = false) : parts os n = [n] := by
  induction n with
  | nil => rfl
  | cons c n ih =>
    rw [parts, ih fun d hd => h d (List.mem_cons_of_mem _ hd)]
    simp [h c List.mem_cons_self]

theorem parts_cons {os : OS} {n s : Str} (h : ∀ c ∈ n, isSep os c = false) {b : Char} (hb : isSep os b = true) :
    parts os (n ++ b :: s) = n :: parts os s := by
  induction n with
  | nil => simp [parts, hb]
  | cons c n ih =>
    rw [List.cons_append, parts, ih fun d hd => h d (List.mem_cons_of_mem _ hd)]
    simp [h c List.mem_cons_self]

theorem parts_folders {fs : List Str} {n : Str} (h : ∀ f ∈ fs, IsName f) (hn : IsName n) :
    parts .windows (fs.flatMap (· ++ ['\\']) ++ n) = fs ++ [n] := by
  induction fs with
  | nil => simpa using parts_plain (Plain.noSep hn.1 .windows)
  | cons f fs ih =>
    have : (f :: fs).flatMap (· ++ ['\\']) ++ n = f ++ '\\' :: (fs.flatMap (· ++ ['\\']) ++ n) := by simp
    rw [this, parts_cons (Plain.noSep (h f List.mem_cons_self).1 .windows) rfl, ih fun g hg => h g (List.mem_cons_of_mem _ hg)]
    rfl

theorem filter_names {l : List Str} (h : ∀ f ∈ l, IsName f) : (l.filter fun x => !(x = [] || x = ['.'])) = l := by
  rw [List.filter_eq_self]
  intro f hf
  have := h f hf
  simp [this.2.1, this.2.2]

theorem head_noSep {os : OS} {n : Str} (hn : ∀ c ∈ n, isSep os c = false) (cwd : List Str) :
    resolve os cwd n = cwd ++ (parts os n).filter fun x => !(x = [] || x = ['.']) := by
  cases n with
  | nil => simp [resolve, parts]
  | cons c s => simp [resolve, hn c List.mem_cons_self]

theorem resolve_windows {fs : List Str} {n : Str} (h : ∀ f ∈ fs, IsName f) (hn : IsName n) (cwd : List Str) (root : Bool) :
    resolve .windows cwd (path [] root fs n) = place cwd root fs n := by
  have hall : ∀ f ∈ fs ++ [n], IsName f := by
    intro f hf
    rcases List.mem_append.1 hf with hf | hf
    · exact h f hf
    · rw [List.mem_singleton.1 hf]; exact hn
  have hp := parts_folders h hn
  cases root with
  | true =>
    have : path [] true fs n = '\\' :: (fs.flatMap (· ++ ['\\']) ++ n) := by simp [path, folders]
    rw [this]
    simp only [resolve, parts, isSep, decide_true, Bool.true_or, if_true, hp]
    rw [List.filter_cons_of_neg (by simp), filter_names hall]
    rfl
  | false =>
    have e : path [] false fs n = fs.flatMap (· ++ ['\\']) ++ n := by simp [path, folders]
    rw [e]
    have hc : ∀ p : Str, (∃ c s, p = c :: s ∧ isSep .windows c = false) →
        resolve .windows cwd p = cwd ++ (parts .windows p).filter fun x => !(x = [] || x = ['.']) := by
      rintro p ⟨c, s, rfl, hc⟩
      simp [resolve, hc]
    rw [hc, hp, filter_names hall]
    · simp [place]
    · cases fs with
      | nil =>
        obtain ⟨h1, h2, _⟩ := hn
        cases n with
        | nil => exact absurd rfl h2
        | cons c n => exact ⟨c, n, rfl, Plain.noSep h1 .windows c List.mem_cons_self⟩
      | cons f fs =>
        obtain ⟨h1, h2, _⟩ := h f List.mem_cons_self
        cases f with
        | nil => exact absurd rfl h2
        | cons c f => exact ⟨c, f ++ '\\' :: (fs.flatMap (· ++ ['\\']) ++ n), by simp, Plain.noSep h1 .windows c List.mem_cons_self⟩

/-- On other systems the whole text is one name if there is no slash in it. -/
theorem resolve_posix {p : Str} (h : '/' ∉ p) (h0 : p ≠ []) (h1 : p ≠ ['.']) (cwd : List Str) : resolve .posix cwd p = cwd ++ [p] := by
  have hs : ∀ c ∈ p, isSep .posix c = false := by
    intro c hc
    simp only [isSep, decide_eq_false_iff_not]
    exact fun e => h (e ▸ hc)
  rw [head_noSep hs, parts_plain hs]
  simp [h0, h1]

theorem same_windows (a b : List Str) : same .windows a b = true ↔ Alike b a := by
  rw [alike_iff]
  simp [same, eq_comm]

theorem find_some {α : Type} {p : α → Bool} {l : List α} : (l.find? p).isSome = true ↔ ∃ x ∈ l, p x = true := by
  simp [List.find?_isSome]

theorem name_lower {s : Str} (h : IsName s) : IsName (lower s) := by
  refine ⟨plain_lower h.1, by simpa [lower] using h.2.1, fun e => ?_⟩
  match s, h with
  | [], h => exact h.2.1 rfl
  | [c], h =>
    simp only [lower, List.map_cons, List.map_nil, List.cons.injEq, and_true] at e
    exact h.2.2 (by rw [toLower_eq (by decide) e])
  | _ :: _ :: _, _ => simp [lower] at e

theorem alike_lower (f cwd fs : List Str) (n : Str) (root : Bool) :
    Alike f (place cwd root (fs.map lower) (lower n)) ↔ Alike f (place cwd root fs n) := by
  rw [alike_iff, alike_iff]
  have : ((fs.map lower).map (·.map Char.toLower)) = fs.map (·.map Char.toLower) := by
    simp [lower, lower_lower_char]
  cases root <;> simp only [place, if_true, Bool.false_eq_true, if_false, List.map_append, this, List.map_cons, List.map_nil, lower, map_lower_lower]

theorem windows_place {fs : List Str} {n : Str} (h : ∀ f ∈ fs, IsName f) (hn : IsName n) (cwd : List Str) (root : Bool)
    (a : Arg) (ha : a = .value (path [] root fs n) ∨ a = .literal (path [] root fs n)) (f : List Str) :
    same .windows (resolve .windows cwd a.get) f = true ↔ Alike f (place cwd root fs n) := by
  rcases ha with rfl | rfl
  · rw [Arg.get, resolve_windows h hn, same_windows]
  · rw [Arg.get, lower_path, show lower [] = [] from rfl, resolve_windows, same_windows, alike_lower]
    · intro g hg
      obtain ⟨g', hg', rfl⟩ := List.mem_map.1 hg
      exact name_lower (h g' hg')
    · exact name_lower hn

theorem parts_ne {os : OS} (s : Str) : parts os s ≠ [] := by
  cases s with
  | nil => simp [parts]
  | cons c s =>
    rw [parts]
    split
    · simp
    · split <;> simp

theorem parts_append {os : OS} {b : Char} (hb : isSep os b = true) (a n : Str) : parts os (a ++ b :: n) = parts os a ++ parts os n := by
  induction a with
  | nil => simp [parts, hb]
  | cons c a ih =>
    rw [List.cons_append, parts, parts, ih]
    split
    · rfl
    · cases hp : parts os a with
      | nil => exact absurd hp (parts_ne a)
      | cons x xs => rfl

theorem sep_isSep (os : OS) : isSep os (sep os) = true := by cases os <;> rfl

theorem join_resolve {os : OS} {c : Char} {s : Str} (hc : isSep os c = true) {n : Str} (hn : IsName n) (cwd : List Str) :
    resolve os cwd (join os (c :: s) n) = resolve os cwd (c :: s) ++ [n] := by
  have hf : ([n].filter fun x => !(x = [] || x = ['.'])) = [n] := filter_names (by simpa using hn)
  have hpn := parts_plain (Plain.noSep hn.1 os)
  have hr : ∀ t, resolve os cwd (c :: t) = (parts os (c :: t)).filter fun x => !(x = [] || x = ['.']) := by
    intro t; simp [resolve, hc]
  obtain ⟨a, b, hab⟩ : ∃ a b, c :: s = a ++ [b] := ⟨_, _, (List.dropLast_concat_getLast (by simp)).symm⟩
  have hl : (c :: s).getLast? = some b := by rw [hab]; simp
  rw [join, hl]
  by_cases hb : isSep os b = true
  · simp only [hb, if_true]
    have e : c :: s ++ n = a ++ b :: n := by rw [hab]; simp
    rw [List.cons_append, hr, ← List.cons_append, e, parts_append hb, hpn, List.filter_append, hf, hr, hab, parts_append hb,
      List.filter_append]
    simp [parts]
  · simp only [hb]
    have e : c :: s ++ [sep os] ++ n = (c :: s) ++ sep os :: n := by simp
    simp only [Bool.false_eq_true, if_false]
    rw [e, List.cons_append, hr, ← List.cons_append, parts_append (sep_isSep os), hpn, List.filter_append, hf, hr]

theorem basename_name {os : OS} {n : Str} (hn : IsName n) : basename os n = n := by
  have hc : ':' ∉ n := fun h => (hn.1 _ h).2.2 rfl
  rw [basename, splitdrive_noColon hc]
  have := tail_eq (os := os) (a := []) (n := n) (by simp [Ends]) (Plain.noSep hn.1 os)
  simpa using this

end FindFileAux

open Model.FindFile PathFnsSpec FindFileSpec FindFileAux
open Model.PathFns (Arg OS)

/-- **C155** on Windows, without SET PATH: `FILE(path)` is .T. exactly if there is a file of that path. -/
theorem C155_file_partial (d : Disk) {fs : List (List Char)} {n : List Char} (h : ∀ f ∈ fs, IsName f) (hn : IsName n) (root : Bool)
    (a : Arg) (ha : a = .value (path [] root fs n) ∨ a = .literal (path [] root fs n)) :
    ∃ b, file .windows d a none = .ok b ∧ (b = true ↔ Has d.files (place d.cwd root fs n)) := by
  refine ⟨_, rfl, ?_⟩
  rw [isfile, find_some]
  simp only [windows_place h hn d.cwd root a ha, Has]

/-- A disk for demonstrations. -/
def FindFileDemo.disk : Disk :=
  ⟨[["data".toList, "Orders.dbf".toList], ["main.prg".toList]], [["data".toList]], []⟩

example : file .windows FindFileDemo.disk (.literal "DATA\\orders.DBF".toList) none = .ok true ∧
    path [] false ["DATA".toList] "orders.DBF".toList = "DATA\\orders.DBF".toList := ⟨by rfl, by decide +kernel⟩

/-- **C155** on Windows: `DIRECTORY(path)` is .T. exactly if there is a folder of that path. -/
theorem C155_directory_partial (d : Disk) {fs : List (List Char)} {n : List Char} (h : ∀ f ∈ fs, IsName f) (hn : IsName n) (root : Bool)
    (a : Arg) (ha : a = .value (path [] root fs n) ∨ a = .literal (path [] root fs n)) :
    ∃ b, directory .windows d a none = .ok b ∧ (b = true ↔ Has d.folders (place d.cwd root fs n)) := by
  refine ⟨_, rfl, ?_⟩
  rw [isdir, List.any_eq_true]
  simp only [windows_place h hn d.cwd root a ha, Has]

example : directory .windows FindFileDemo.disk (.value "\\Data".toList) none = .ok true := by rfl

/-- With a second argument, which FoxPro allows, FILE and DIRECTORY always raise an exception. -/
theorem C155_flag_fails (os : OS) (d : Disk) (a : Arg) (flag : Int) :
    file os d a (some flag) = .error .typeError ∧ directory os d a (some flag) = .error .typeError := ⟨rfl, rfl⟩

/-- SET PATH is not taken into account: FILE gives what FoxPro gives exactly if the file is in the current folder
or in none of the folders of SET PATH. -/
theorem C155_path_iff (d : Disk) {n : List Char} (hn : IsName n) (a : Arg) (ha : a = .value n ∨ a = .literal n) (setPath : List (List (List Char))) :
    ∃ b, file .windows d a none = .ok b ∧
      ((b = true ↔ Finds d.files d.cwd setPath n) ↔ (Has d.files (d.cwd ++ [n]) ∨ ∀ p ∈ setPath, ¬ Has d.files (p ++ [n]))) := by
  have hp : path [] false [] n = n := by simp [path, folders]
  obtain ⟨b, h1, h2⟩ := C155_file_partial d (fs := []) (by simp) hn false a (by rw [hp]; exact ha)
  refine ⟨b, h1, ?_⟩
  rw [h2]
  simp only [place, Bool.false_eq_true, if_false, List.append_nil, Finds]
  constructor
  · intro h
    by_cases hc : Has d.files (d.cwd ++ [n])
    · exact .inl hc
    · exact .inr fun p hp hh => hc (h.2 (.inr ⟨p, hp, hh⟩))
  · rintro (h | h)
    · exact ⟨fun _ => .inl h, fun _ => h⟩
    · refine ⟨.inl, ?_⟩
      rintro (h' | ⟨p, hp, h'⟩)
      · exact h'
      · exact absurd h' (h p hp)

example : file .windows FindFileDemo.disk (.value "orders.dbf".toList) none = .ok false ∧
    IsName "orders.dbf".toList ∧ ["data".toList] ++ ["Orders.dbf".toList] ∈ FindFileDemo.disk.files :=
  ⟨by rfl, ⟨by simp [Plain], by decide, by decide⟩, by decide +kernel⟩

/-- On other systems capital and small letters must be those of the disk, and those of a name written in the
program are all made small: `FILE("README")` is .T. exactly if there is a file `readme`. -/
theorem C155_case_iff (d : Disk) {n : List Char} (hn : IsName n) :
    ∃ b c, file .posix d (.value n) none = .ok b ∧ (b = true ↔ d.cwd ++ [n] ∈ d.files) ∧
      file .posix d (.literal n) none = .ok c ∧ (c = true ↔ d.cwd ++ [n.map Char.toLower] ∈ d.files) := by
  have key : ∀ m, IsName m → ((isfile .posix d m).isSome = true ↔ d.cwd ++ [m] ∈ d.files) := by
    intro m hm
    rw [isfile, find_some, resolve_posix (fun h => (hm.1 _ h).2.1 rfl) hm.2.1 hm.2.2]
    simp [same]
  exact ⟨_, _, rfl, key n hn, rfl, key _ (name_lower hn)⟩

example : file .posix { FindFileDemo.disk with files := [["README".toList]] } (.literal "README".toList) none = .ok false := by rfl

/-- On other systems no file in a folder is found by a path with backslashes, unless a file in the current folder has
backslashes in its name. -/
theorem C155_folder_fails (d : Disk) {f : List Char} {fs : List (List Char)} {n : List Char} (h : ∀ g ∈ f :: fs, IsName g) (hn : IsName n)
    (root : Bool) (hd : ∀ q ∈ d.files, ∀ x ∈ q, '\\' ∉ x)
    (a : Arg) (ha : a = .value (path [] root (f :: fs) n) ∨ a = .literal (path [] root (f :: fs) n)) :
    file .posix d a none = .ok false := by
  have key : ∀ p : List Char, '\\' ∈ p → '/' ∉ p → isfile .posix d p = none := by
    intro p hb hs
    rw [isfile, List.find?_eq_none]
    intro q hq
    rw [resolve_posix hs (by rintro rfl; simp at hb) (by rintro rfl; simp at hb)]
    simp only [same, decide_eq_true_eq]
    rintro rfl
    exact hd _ hq p (by simp) hb
  have hfree : ∀ (gs : List (List Char)) (m : List Char), (∀ g ∈ gs, IsName g) → IsName m → '/' ∉ path [] root gs m := by
    intro gs m hg hm hmem
    simp only [path, folders, List.nil_append, List.mem_append, List.mem_flatMap] at hmem
    rcases hmem with (hr | ⟨g, hgs, hg'⟩) | hmem
    · cases root <;> simp at hr
    · rcases hg' with hg' | hg'
      · exact ((hg g hgs).1 _ hg').2.1 rfl
      · simp at hg'
    · exact (hm.1 _ hmem).2.1 rfl
  have hback : ∀ (g : List Char) (gs : List (List Char)) (m : List Char), '\\' ∈ path [] root (g :: gs) m := by
    intro g gs m; simp [path, folders]
  rcases ha with rfl | rfl
  · simp only [file, Arg.get, key _ (hback _ _ _) (hfree _ _ h hn), Option.isSome_none]
  · simp only [file, Arg.get, PathFnsAux.lower_path, show Model.PathFns.lower [] = [] from rfl, List.map_cons]
    rw [key _ (hback _ _ _) (hfree _ _ ?_ (name_lower hn))]
    · rfl
    · intro g hg
      rw [← List.map_cons] at hg
      obtain ⟨g', hg', rfl⟩ := List.mem_map.1 hg
      exact name_lower (h g' hg')

example : file .posix FindFileDemo.disk (.value "data\\Orders.dbf".toList) none = .ok false := by rfl

theorem FindFileAux.locfile_gen (os : OS) (d : Disk) {c : Char} {s : List Char} (hc : c = '/' ∨ os = .windows ∧ c = '\\')
    {n : List Char} (hn : IsName n) (home : List (List Char)) (hh : resolve os d.cwd (c :: s) = home) :
    (∀ f, locfile os d (c :: s) n = .found f → f ∈ d.files ∧ (Alike f (d.cwd ++ [n]) ∨ Alike f (home ++ [n]))) ∧
    (os = .windows → (locfile os d (c :: s) n = .asks ↔ ¬ Has d.files (d.cwd ++ [n]) ∧ ¬ Has d.files (home ++ [n]))) ∧
    (os = .posix → (locfile os d (c :: s) n = .asks ↔ d.cwd ++ [n] ∉ d.files ∧ home ++ [n] ∉ d.files)) := by
  have hcs : Model.PathFns.isSep os c = true := by
    rcases hc with rfl | ⟨rfl, rfl⟩
    · cases os <;> rfl
    · rfl
  have r1 : resolve os d.cwd n = d.cwd ++ [n] := by
    rw [head_noSep (PathFnsAux.Plain.noSep hn.1 os), parts_plain (PathFnsAux.Plain.noSep hn.1 os), filter_names (by simpa using hn)]
  have r2 : resolve os d.cwd (join os (c :: s) n) = home ++ [n] := by rw [join_resolve hcs hn, hh]
  have hsame : ∀ a b, same os a b = true → Alike b a := by
    intro a b h
    cases os with
    | windows => exact (same_windows a b).1 h
    | posix =>
      simp only [same, decide_eq_true_eq] at h
      rw [h, alike_iff]
  have hl : locfile os d (c :: s) n = match d.files.find? (same os (d.cwd ++ [n])) with
      | some f => .found f
      | none => match d.files.find? (same os (home ++ [n])) with
        | some f => .found f
        | none => .asks := by
    simp only [locfile, isfile, r1, basename_name hn, searchPath, search, r2]
    cases d.files.find? (same os (d.cwd ++ [n])) <;> rfl
  have hasks : locfile os d (c :: s) n = .asks ↔
      (∀ f ∈ d.files, same os (d.cwd ++ [n]) f = false) ∧ ∀ f ∈ d.files, same os (home ++ [n]) f = false := by
    rw [hl]
    cases e1 : d.files.find? (same os (d.cwd ++ [n])) with
    | some f =>
      have h1 := List.find?_some e1
      have h2 := List.mem_of_find?_eq_some e1
      simp only [reduceCtorEq, false_iff, not_and]
      intro h
      rw [h f h2] at h1
      cases h1
    | none =>
      rw [List.find?_eq_none] at e1
      have e1' : ∀ f ∈ d.files, same os (d.cwd ++ [n]) f = false := fun f hf => by simpa using e1 f hf
      cases e2 : d.files.find? (same os (home ++ [n])) with
      | some f =>
        have h1 := List.find?_some e2
        have h2 := List.mem_of_find?_eq_some e2
        simp only [reduceCtorEq, false_iff, not_and]
        intro _ h
        rw [h f h2] at h1
        cases h1
      | none =>
        rw [List.find?_eq_none] at e2
        simp only [true_iff]
        exact ⟨e1', fun f hf => by simpa using e2 f hf⟩
  refine ⟨?_, ?_, ?_⟩
  · intro f hf
    rw [hl] at hf
    split at hf
    · next e => cases hf; exact ⟨List.mem_of_find?_eq_some e, .inl (hsame _ _ (List.find?_some e))⟩
    · split at hf
      · next e => cases hf; exact ⟨List.mem_of_find?_eq_some e, .inr (hsame _ _ (List.find?_some e))⟩
      · cases hf
  · rintro rfl
    rw [hasks]
    simp only [← Bool.not_eq_true, same_windows, Has, not_exists, not_and]
  · rintro rfl
    rw [hasks]
    simp only [same, decide_eq_false_iff_not]
    constructor
    · rintro ⟨h1, h2⟩
      exact ⟨fun h => h1 _ h rfl, fun h => h2 _ h rfl⟩
    · rintro ⟨h1, h2⟩
      exact ⟨fun f hf e => h1 (e ▸ hf), fun f hf e => h2 (e ▸ hf)⟩

namespace FindFileAux
open Model.PathFns

theorem written_cons (q : Char) (home : List (List Char)) : ∃ s, written q home = q :: s := by
  cases home with
  | nil => exact ⟨[], rfl⟩
  | cons f fs => exact ⟨f ++ fs.flatMap (q :: ·), rfl⟩

theorem parts_written {os : OS} {q : Char} (hq : isSep os q = true) {f : Str} {fs : List Str} (h : ∀ g ∈ f :: fs, IsName g) :
    parts os (f ++ fs.flatMap (q :: ·)) = f :: fs := by
  induction fs generalizing f with
  | nil => simpa using parts_plain (PathFnsAux.Plain.noSep (h f List.mem_cons_self).1 os)
  | cons g fs ih =>
    have : f ++ (g :: fs).flatMap (q :: ·) = f ++ q :: (g ++ fs.flatMap (q :: ·)) := by simp
    rw [this, parts_cons (PathFnsAux.Plain.noSep (h f List.mem_cons_self).1 os) hq, ih fun k hk => h k (List.mem_cons_of_mem _ hk)]

theorem resolve_written {os : OS} {q : Char} (hq : isSep os q = true) {home : List Str} (h : ∀ f ∈ home, IsName f) (cwd : List Str) :
    resolve os cwd (written q home) = home := by
  cases home with
  | nil => simp [written, resolve, hq, parts]
  | cons f fs =>
    have hw : written q (f :: fs) = q :: (f ++ fs.flatMap (q :: ·)) := rfl
    rw [hw, resolve, if_pos hq, parts, if_pos hq, parts_written hq h]
    have := filter_names h
    simpa using this

end FindFileAux

/-- **C155**, LOCFILE without SET PATH, on every system: what is found is a file of the disk with the name; the user is
asked exactly if there is none in the current folder and none in the folder of the program. -/
theorem C155_locfile_partial (os : OS) (d : Disk) {q : Char} (hq : q = '/' ∨ os = .windows ∧ q = '\\')
    {n : List Char} (hn : IsName n) (home : List (List Char)) (hh : ∀ f ∈ home, IsName f) :
    (∀ f, locfile os d (written q home) n = .found f → f ∈ d.files ∧ (Alike f (d.cwd ++ [n]) ∨ Alike f (home ++ [n]))) ∧
    (os = .windows → (locfile os d (written q home) n = .asks ↔ ¬ Has d.files (d.cwd ++ [n]) ∧ ¬ Has d.files (home ++ [n]))) ∧
    (os = .posix → (locfile os d (written q home) n = .asks ↔ d.cwd ++ [n] ∉ d.files ∧ home ++ [n] ∉ d.files)) := by
  have hqs : Model.PathFns.isSep os q = true := by
    rcases hq with rfl | ⟨rfl, rfl⟩
    · cases os <;> rfl
    · rfl
  obtain ⟨s, hs⟩ := written_cons q home
  rw [hs]
  exact locfile_gen os d hq hn home (by rw [← hs]; exact resolve_written hqs hh d.cwd)

example : locfile .posix FindFileDemo.disk (written '/' ["data".toList]) "Orders.dbf".toList =
    .found ["data".toList, "Orders.dbf".toList] ∧ written '/' ["data".toList] = "/data".toList := by decide +kernel

/-- A file that is only in a folder of SET PATH is not found: the user is asked for it. -/
theorem C155_locfile_fails (d : Disk) {q : Char} (hq : q = '/' ∨ q = '\\') {n : List Char} (hn : IsName n)
    (setPath : List (List (List Char))) (hf : Finds d.files d.cwd setPath n) (h1 : ¬ Has d.files (d.cwd ++ [n]))
    (home : List (List Char)) (hh : ∀ f ∈ home, IsName f) (h2 : ¬ Has d.files (home ++ [n])) :
    locfile .windows d (written q home) n = .asks ∧ ∃ p ∈ setPath, Has d.files (p ++ [n]) := by
  refine ⟨((C155_locfile_partial .windows d (by simpa using hq) hn home hh).2.1 rfl).2 ⟨h1, h2⟩, ?_⟩
  rcases hf with hf | hf
  · exact absurd hf h1
  · exact hf

example : locfile .windows FindFileDemo.disk (written '\\' ["programs".toList]) "orders.dbf".toList = .asks ∧
    ["data".toList, "Orders.dbf".toList] ∈ FindFileDemo.disk.files := by decide +kernel

end Props
