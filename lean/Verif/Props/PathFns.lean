import Verif.Model.PathFns
/-!
# Functions on names of files (C114)
-/
namespace Props.PathFnsSpec

open Model.PathFns (Str)

/-- A name of a file or folder: no characters that separate. -/
def Plain (s : Str) : Prop := ∀ c ∈ s, c ≠ '\\' ∧ c ≠ '/' ∧ c ≠ ':'

/-- `C:` or nothing. -/
inductive Drive : Str → Prop
  | none : Drive []
  | letter (c : Char) : c.isAlpha = true → Drive [c, ':']

/-- The folders of a path, each followed by a backslash; they may begin at the root. -/
def folders (root : Bool) (fs : List Str) : Str :=
  (if root then ['\\'] else []) ++ fs.flatMap (· ++ ['\\'])

/-- `drive\folder\...\name`. -/
def path (drive : Str) (root : Bool) (fs : List Str) (name : Str) : Str := drive ++ folders root fs ++ name

/-- The same without the last backslash and the name: `drive\folder\...\folder`. -/
def folderPath (drive : Str) (root : Bool) (fs : List Str) : Str :=
  drive ++ (if root then ['\\'] else []) ++ ['\\'].intercalate fs

/-- What is left of a file name at the last dot, and what is right of it. -/
def Splits (name stem ext : Str) : Prop :=
  name = stem ++ '.' :: ext ∧ '.' ∉ ext ∨ name = stem ∧ '.' ∉ name ∧ ext = []

end Props.PathFnsSpec

namespace Props.PathFnsAux
open Model.PathFns Props.PathFnsSpec

theorem takeWhile_all {p : Char → Bool} : ∀ {s : List Char}, (∀ c ∈ s, p c = true) → s.takeWhile p = s
  | [], _ => rfl
  | c :: s, h => by
    rw [List.takeWhile_cons, h c (by simp)]
    simp [takeWhile_all (s := s) fun d hd => h d (List.mem_cons_of_mem _ hd)]
theorem dropWhile_all {p : Char → Bool} : ∀ {s : List Char}, (∀ c ∈ s, p c = true) → s.dropWhile p = []
  | [], _ => rfl
  | c :: s, h => by
    rw [List.dropWhile_cons, h c (by simp)]
    simp [dropWhile_all (s := s) fun d hd => h d (List.mem_cons_of_mem _ hd)]
theorem takeWhile_stop {p : Char → Bool} {s t : List Char} {x : Char} (h : ∀ c ∈ s, p c = true) (hx : p x = false) :
    (s ++ x :: t).takeWhile p = s := by
  induction s with
  | nil => simp [hx]
  | cons c s ih =>
    rw [List.cons_append, List.takeWhile_cons, h c (by simp)]
    simp [ih fun d hd => h d (List.mem_cons_of_mem _ hd)]
theorem dropWhile_stop {p : Char → Bool} {s t : List Char} {x : Char} (h : ∀ c ∈ s, p c = true) (hx : p x = false) :
    (s ++ x :: t).dropWhile p = x :: t := by
  induction s with
  | nil => simp [hx]
  | cons c s ih =>
    rw [List.cons_append, List.dropWhile_cons, h c (by simp)]
    simp [ih fun d hd => h d (List.mem_cons_of_mem _ hd)]

/-- A text without separators behind one that ends in a separator, or alone. -/
def Ends (os : OS) (a : Str) : Prop := a = [] ∨ ∃ b x, a = b ++ [x] ∧ isSep os x = true

theorem tail_eq {os : OS} {a n : Str} (ha : Ends os a) (hn : ∀ c ∈ n, isSep os c = false) : tail os (a ++ n) = n := by
  rcases ha with rfl | ⟨b, x, rfl, hx⟩
  · rw [tail, List.nil_append, takeWhile_all (by simpa using hn), List.reverse_reverse]
  · rw [tail]
    simp only [List.reverse_append, List.reverse_cons, List.reverse_nil, List.nil_append, List.singleton_append]
    rw [takeWhile_stop (by simpa using hn) (by simp [hx]), List.reverse_reverse]
theorem head_eq {os : OS} {a n : Str} (ha : Ends os a) (hn : ∀ c ∈ n, isSep os c = false) : head os (a ++ n) = a := by
  rcases ha with rfl | ⟨b, x, rfl, hx⟩
  · rw [head, List.nil_append, dropWhile_all (by simpa using hn)]; rfl
  · rw [head]
    simp only [List.reverse_append, List.reverse_cons, List.reverse_nil, List.nil_append, List.singleton_append]
    rw [dropWhile_stop (by simpa using hn) (by simp [hx])]
    simp

theorem Plain.noSep {s : Str} (h : Plain s) (os : OS) : ∀ c ∈ s, isSep os c = false := by
  intro c hc
  have := h c hc
  cases os <;> simp [isSep, this.1, this.2.1]

theorem ends_folders (root : Bool) (fs : List Str) : Ends .windows (folders root fs) := by
  rcases List.eq_nil_or_concat fs with rfl | ⟨gs, g, rfl⟩
  · cases root
    · exact Or.inl rfl
    · exact Or.inr ⟨[], '\\', rfl, rfl⟩
  · refine Or.inr ⟨(if root then ['\\'] else []) ++ gs.flatMap (· ++ ['\\']) ++ g, '\\', ?_, rfl⟩
    simp [folders]

theorem noColon_folders {root : Bool} {fs : List Str} (h : ∀ f ∈ fs, Plain f) : ':' ∉ folders root fs := by
  simp only [folders, List.mem_append, List.mem_flatMap]
  rintro (h1 | ⟨f, hf, h1⟩)
  · cases root <;> simp at h1
  · rcases h1 with h1 | h1
    · exact (h f hf _ h1).2.2 rfl
    · simp at h1

theorem splitdrive_noColon {os : OS} {s : Str} (h : ':' ∉ s) : splitdrive os s = ([], s) := by
  unfold splitdrive
  split
  · simp at h
  · rfl

theorem splitdrive_path {d s : Str} (hd : Drive d) (hs : ':' ∉ s) : splitdrive .windows (d ++ s) = (d, s) := by
  cases hd with
  | none => rw [List.nil_append, splitdrive_noColon hs]
  | letter c h1 => rfl

theorem noColon_path {root : Bool} {fs : List Str} {n : Str} (h : ∀ f ∈ fs, Plain f) (hn : Plain n) :
    ':' ∉ folders root fs ++ n := by
  rw [List.mem_append]
  rintro (h1 | h1)
  · exact noColon_folders h h1
  · exact (hn _ h1).2.2 rfl

theorem splitext_last {os : OS} {a stem ext : Str} (ha : Ends os a) (hs : ∀ c ∈ stem, isSep os c = false)
    (he : ∀ c ∈ ext, isSep os c = false) (hd : '.' ∉ ext) (hdot : isSep os '.' = false) :
    splitext os (a ++ (stem ++ '.' :: ext)) =
      if stem.all (· = '.') then (a ++ (stem ++ '.' :: ext), []) else (a ++ stem, '.' :: ext) := by
  have hn : ∀ c ∈ stem ++ '.' :: ext, isSep os c = false := by
    intro c hc
    rcases List.mem_append.mp hc with h | h
    · exact hs c h
    · rcases List.mem_cons.mp h with rfl | h
      · exact hdot
      · exact he c h
  have hne : ∀ c ∈ ext.reverse, decide (c ≠ '.') = true := by
    intro c hc
    have : c ≠ '.' := by rintro rfl; exact hd (by simpa using hc)
    simp [this]
  have hr : (stem ++ '.' :: ext).reverse = ext.reverse ++ '.' :: stem.reverse := by simp
  simp only [splitext, tail_eq ha hn, head_eq ha hn, hr, takeWhile_stop hne (show decide ('.' ≠ '.') = false by decide),
    dropWhile_stop hne (show decide ('.' ≠ '.') = false by decide), List.reverse_reverse]
  have : stem.reverse.all (· = '.') = stem.all (· = '.') := by simp
  rw [this]

theorem splitext_none {os : OS} {a name : Str} (ha : Ends os a) (hs : ∀ c ∈ name, isSep os c = false) (hd : '.' ∉ name) :
    splitext os (a ++ name) = (a ++ name, []) := by
  have hne : ∀ c ∈ name.reverse, decide (c ≠ '.') = true := by
    intro c hc
    have : c ≠ '.' := by rintro rfl; exact hd (by simpa using hc)
    simp [this]
  simp only [splitext, tail_eq ha hs, dropWhile_all hne]

theorem all_dots {s : Str} : s.all (· = '.') = true ↔ ¬ ∃ c ∈ s, c ≠ '.' := by simp

/-- The folders of a path without the last backslash. -/
theorem folders_eq {root : Bool} {fs : List Str} (h : fs ≠ []) :
    folders root fs = (if root then ['\\'] else []) ++ ['\\'].intercalate fs ++ ['\\'] := by
  have : ∀ fs : List Str, fs ≠ [] → fs.flatMap (· ++ ['\\']) = ['\\'].intercalate fs ++ ['\\'] := by
    intro fs
    induction fs with
    | nil => intro h; exact absurd rfl h
    | cons f fs ih =>
      intro _
      cases fs with
      | nil => simp [List.intercalate]
      | cons g gs =>
        rw [List.flatMap_cons, ih (by simp)]
        simp [List.intercalate, List.intersperse]
  simp [folders, this fs h]

theorem intercalate_last {fs : List Str} (h : fs ≠ []) (hf : ∀ f ∈ fs, Plain f ∧ f ≠ []) :
    ∃ b x, ['\\'].intercalate fs = b ++ [x] ∧ isSep .windows x = false := by
  induction fs with
  | nil => exact absurd rfl h
  | cons f fs ih =>
    cases fs with
    | nil =>
      obtain ⟨hp, hne⟩ := hf f (by simp)
      rcases List.eq_nil_or_concat f with rfl | ⟨b, x, rfl⟩
      · exact absurd rfl hne
      · exact ⟨b, x, by simp [List.intercalate], Plain.noSep hp _ x (by simp)⟩
    | cons g gs =>
      obtain ⟨b, x, e, hx⟩ := ih (by simp) (fun y hy => hf y (List.mem_cons_of_mem _ hy))
      refine ⟨f ++ ['\\'] ++ b, x, ?_, hx⟩
      have : ['\\'].intercalate (f :: g :: gs) = f ++ ['\\'] ++ ['\\'].intercalate (g :: gs) := by
        simp [List.intercalate, List.intersperse]
      rw [this, e, List.append_assoc]
      simp

end Props.PathFnsAux

namespace Props
open Model.PathFns Props.PathFnsSpec Props.PathFnsAux

/-- C114: on Windows JUSTFNAME gives the name behind the last backslash of a path and JUSTDRIVE its drive. -/
theorem C114_name_partial {drive name : Str} (hd : Drive drive) (root : Bool) {fs : List Str} (hf : ∀ f ∈ fs, Plain f)
    (hn : Plain name) :
    justfname .windows (.value (path drive root fs name)) = name ∧
      justdrive .windows (.value (path drive root fs name)) = drive := by
  simp only [justfname, justdrive, basename, Arg.get, path, List.append_assoc,
    splitdrive_path hd (noColon_path hf hn)]
  exact ⟨tail_eq (ends_folders root fs) (Plain.noSep hn _), trivial⟩

example : justfname .windows (.value "C:\\Data\\a.b.txt".toList) = "a.b.txt".toList :=
  (C114_name_partial (drive := "C:".toList) (name := "a.b.txt".toList) (.letter 'C' (by decide)) true
    (fs := ["Data".toList]) (by simp [Plain]) (by simp [Plain])).1

/-- C114: on Windows JUSTPATH gives the path without the name and the last backslash, and ADDBS puts this
backslash back; ADDBS leaves a path alone that ends in a backslash. -/
theorem C114_path_partial {drive name : Str} (hd : Drive drive) (root : Bool) {fs : List Str}
    (hf : ∀ f ∈ fs, Plain f ∧ f ≠ []) (h : fs ≠ []) (hn : Plain name) :
    justpath .windows (.value (path drive root fs name)) = folderPath drive root fs ∧
      addbs .windows (.value (folderPath drive root fs)) = drive ++ folders root fs ∧
      addbs .windows (.value (drive ++ folders root fs)) = drive ++ folders root fs := by
  have hp : ∀ f ∈ fs, Plain f := fun f hm => (hf f hm).1
  obtain ⟨b, x, e, hx⟩ := intercalate_last h hf
  have hr : (if root then ['\\'] else []) ++ ['\\'].intercalate fs =
      ((if root then ['\\'] else []) ++ b) ++ [x] := by rw [e, List.append_assoc]
  have hc : ':' ∉ (if root then ['\\'] else []) ++ ['\\'].intercalate fs := by
    intro hm
    refine noColon_folders (root := root) hp ?_
    rw [folders_eq h]
    exact List.mem_append_left _ hm
  refine ⟨?_, ?_, ?_⟩
  · simp only [justpath, dirname, Arg.get, path, List.append_assoc, splitdrive_path hd (noColon_path hp hn),
      head_eq (ends_folders root fs) (Plain.noSep hn _)]
    have : rstripSep .windows (folders root fs) = (if root then ['\\'] else []) ++ ['\\'].intercalate fs := by
      rw [folders_eq h, hr, rstripSep]
      simp [show isSep .windows '\\' = true from rfl, hx]
    rw [this, if_neg (by rw [hr]; simp), folderPath, List.append_assoc]
  · simp only [addbs, joinEmpty, Arg.get, folderPath, List.append_assoc, splitdrive_path hd hc]
    rw [hr]
    simp only [List.getLast?_concat, hx, Bool.false_eq_true, if_false]
    rw [folders_eq h, e]
    simp [sep]
  · have hcf := noColon_folders (root := root) hp
    simp only [addbs, joinEmpty, Arg.get, splitdrive_path hd hcf]
    rw [folders_eq h]
    simp [isSep]

example : justpath .windows (.value "C:\\Data\\2024\\a.txt".toList) = "C:\\Data\\2024".toList :=
  (C114_path_partial (drive := "C:".toList) (name := "a.txt".toList) (.letter 'C' (by decide)) true
    (fs := ["Data".toList, "2024".toList]) (by simp [Plain]) (by simp) (by simp [Plain])).1

/-- C114: on Windows slashes separate as backslashes do, and ADDBS adds nothing to a path that ends in one. -/
theorem C114_slash {name : Str} (p : Str) (hn : Plain name) :
    justfname .windows (.value (p ++ '/' :: name)) = name ∧ addbs .windows (.value (p ++ ['/'])) = p ++ ['/'] := by
  have hs : ∀ q : Str, tail .windows (q ++ '/' :: name) = name := by
    intro q
    rw [show q ++ '/' :: name = (q ++ ['/']) ++ name by simp]
    exact tail_eq (.inr ⟨q, '/', rfl, rfl⟩) (Plain.noSep hn _)
  constructor
  · simp only [justfname, basename, Arg.get]
    match p with
    | [] =>
      match name, hn, hs with
      | [], _, hs => exact hs []
      | ':' :: name, hn, _ => exact absurd rfl (hn ':' (by simp)).2.2
      | c :: name, hn, hs =>
        have : c ≠ ':' := (hn c (by simp)).2.2
        rw [show splitdrive .windows ([] ++ '/' :: c :: name) = ([], '/' :: c :: name) by simp [splitdrive, this]]
        exact hs []
    | [c] => exact hs [c]
    | c :: d :: p =>
      by_cases hd : d = ':'
      · subst hd; exact hs p
      · rw [show splitdrive .windows (c :: d :: p ++ '/' :: name) = ([], c :: d :: p ++ '/' :: name) by simp [splitdrive, hd]]
        exact hs (c :: d :: p)
  · have hl : ∀ q : Str, (q ++ ['/']).getLast? = some '/' := fun q => by simp
    simp only [addbs, joinEmpty, Arg.get]
    match p with
    | [] => rfl
    | [c] => rfl
    | c :: d :: p =>
      by_cases hd : d = ':'
      · subst hd
        rw [show splitdrive .windows (c :: ':' :: p ++ ['/']) = ([c, ':'], p ++ ['/']) from rfl]
        simp only [hl]
        simp [isSep]
      · rw [show splitdrive .windows (c :: d :: p ++ ['/']) = ([], c :: d :: p ++ ['/']) by simp [splitdrive, hd]]
        simp only [hl]
        simp [isSep]

example : justfname .windows (.value "C:\\Data/a.txt".toList) = "a.txt".toList :=
  (C114_slash "C:\\Data".toList (name := "a.txt".toList) (by simp [Plain])).1

/-- C114: ADDBS adds no backslash to a drive. -/
theorem C114_drive_fails (c : Char) : addbs .windows (.value [c, ':']) = [c, ':'] := by
  simp [addbs, joinEmpty, Arg.get, splitdrive]

example : addbs .windows (.value "C:".toList) ≠ "C:\\".toList := by
  rw [show "C:".toList = ['C', ':'] from rfl, C114_drive_fails]; decide

/-- C114: JUSTEXT gives what is behind the last dot of the name exactly if there is another character than a dot
before it (or the name stands directly behind a drive). -/
theorem C114_ext_iff {drive name stem ext : Str} (hd : Drive drive) (root : Bool) {fs : List Str}
    (hf : ∀ f ∈ fs, Plain f) (hn : Plain name) (hs : Splits name stem ext) :
    justext .windows (.value (path drive root fs name)) = ext ↔
      ext = [] ∨ (∃ c ∈ stem, c ≠ '.') ∨ (drive ≠ [] ∧ root = false ∧ fs = []) := by
  -- the part behind the last separator is the name, with the drive if there is none
  obtain ⟨a, n, e, ha, hpre, hdn, hds⟩ : ∃ a n : Str, path drive root fs name = a ++ (n ++ name) ∧ Ends .windows a ∧
      (∀ c ∈ n, isSep .windows c = false) ∧ '.' ∉ n ∧ ((∃ c ∈ n, c ≠ '.') ↔ drive ≠ [] ∧ root = false ∧ fs = []) := by
    by_cases h : root = false ∧ fs = []
    · obtain ⟨rfl, rfl⟩ := h
      refine ⟨[], drive, by simp [path, folders], Or.inl rfl, ?_, ?_, ?_⟩
      · cases hd with
        | none => simp
        | letter c h1 =>
          have h2 : c ≠ '\\' := by rintro rfl; simp [Char.isAlpha, Char.isUpper, Char.isLower] at h1
          have h3 : c ≠ '/' := by rintro rfl; simp [Char.isAlpha, Char.isUpper, Char.isLower] at h1
          simp [isSep, h2, h3]
      · cases hd with
        | none => simp
        | letter c h1 =>
          have : c ≠ '.' := by rintro rfl; simp [Char.isAlpha, Char.isUpper, Char.isLower] at h1
          simp [Ne.symm this]
      · cases hd <;> simp
    · refine ⟨drive ++ folders root fs, [], by simp [path], ?_, by simp, by simp, ?_⟩
      · rcases ends_folders root fs with h0 | ⟨b, x, hb, hx⟩
        · exfalso
          apply h
          cases root with
          | true => simp [folders] at h0
          | false =>
            refine ⟨rfl, ?_⟩
            cases fs with
            | nil => rfl
            | cons f fs => simp [folders] at h0
        · exact Or.inr ⟨drive ++ b, x, by rw [hb, List.append_assoc], hx⟩
      · simp only [List.not_mem_nil, false_and, exists_false, false_iff]
        rintro ⟨_, h1, h2⟩
        exact h ⟨h1, h2⟩
  simp only [justext, Arg.get, e]
  rcases hs with ⟨rfl, hx⟩ | ⟨rfl, hx, rfl⟩
  · have h1 : ∀ c ∈ n ++ stem, isSep .windows c = false := by
      intro c hc
      rcases List.mem_append.mp hc with hc | hc
      · exact hpre c hc
      · exact Plain.noSep hn _ c (by simp [hc])
    have h2 : ∀ c ∈ ext, isSep .windows c = false := fun c hc => Plain.noSep hn _ c (by simp [hc])
    rw [← List.append_assoc n, splitext_last ha h1 h2 hx rfl]
    by_cases hall : (n ++ stem).all (· = '.') = true
    · rw [if_pos hall]
      have := all_dots.mp hall
      simp only [List.drop_nil]
      constructor
      · intro h; exact Or.inl h.symm
      · rintro (h | ⟨c, hc, h⟩ | h)
        · exact h.symm
        · exact absurd ⟨c, by simp [hc], h⟩ this
        · obtain ⟨c, hc, hcd⟩ := hds.mpr h
          exact absurd ⟨c, by simp [hc], hcd⟩ this
    · rw [if_neg hall]
      have : ∃ c ∈ n ++ stem, c ≠ '.' := Classical.not_not.mp fun h => hall (all_dots.mpr h)
      simp only [List.drop_succ_cons, List.drop_zero, true_iff]
      obtain ⟨c, hc, hcd⟩ := this
      rcases List.mem_append.mp hc with hc | hc
      · exact Or.inr (Or.inr (hds.mp ⟨c, hc, hcd⟩))
      · exact Or.inr (Or.inl ⟨c, hc, hcd⟩)
  · have : '.' ∉ n ++ name := by
      rw [List.mem_append]; rintro (h | h)
      · exact hdn h
      · exact hx h
    have hsep : ∀ c ∈ n ++ name, isSep .windows c = false := by
      intro c hc
      rcases List.mem_append.mp hc with hc | hc
      · exact hpre c hc
      · exact Plain.noSep hn _ c hc
    rw [splitext_none ha hsep this]
    simp

example : justext .windows (.value "C:\\x\\a.b.txt".toList) = "txt".toList :=
  (C114_ext_iff (drive := "C:".toList) (name := "a.b.txt".toList) (stem := "a.b".toList) (ext := "txt".toList) (.letter 'C' (by decide)) true
    (fs := ["x".toList]) (by simp [Plain]) (by simp [Plain]) (Or.inl ⟨rfl, by simp⟩)).mpr
    (Or.inr (Or.inl ⟨'a', by simp, by decide⟩))

/-- C114: JUSTSTEM gives what is before the last dot of the name exactly if there is another character than a
dot before it. -/
theorem C114_stem_iff {drive name stem ext : Str} (hd : Drive drive) (root : Bool) {fs : List Str}
    (hf : ∀ f ∈ fs, Plain f) (hn : Plain name) (hs : Splits name stem ext) :
    juststem .windows (.value (path drive root fs name)) = stem ↔ '.' ∉ name ∨ ∃ c ∈ stem, c ≠ '.' := by
  have e := (C114_name_partial hd root hf hn).1
  simp only [justfname] at e
  simp only [juststem, e]
  rcases hs with ⟨rfl, hx⟩ | ⟨rfl, hx, rfl⟩
  · have h1 : ∀ c ∈ stem, isSep .windows c = false := fun c hc => Plain.noSep hn _ c (by simp [hc])
    have h2 : ∀ c ∈ ext, isSep .windows c = false := fun c hc => Plain.noSep hn _ c (by simp [hc])
    have := splitext_last (os := .windows) (a := []) (Or.inl rfl) h1 h2 hx rfl
    simp only [List.nil_append] at this
    rw [this]
    by_cases hall : stem.all (· = '.') = true
    · rw [if_pos hall]
      have hd := all_dots.mp hall
      constructor
      · intro h
        have := congrArg List.length h
        simp at this
      · rintro (h | h)
        · simp at h
        · exact absurd h hd
    · rw [if_neg hall]
      simp only [true_iff]
      exact Or.inr (Classical.not_not.mp fun h => hall (all_dots.mpr h))
  · have := splitext_none (os := .windows) (a := []) (Or.inl rfl) (Plain.noSep hn _) hx
    simp only [List.nil_append] at this
    simp [this, hx]

example : juststem .windows (.value "x\\.profile".toList) ≠ [] :=
  fun h => by
    have := (C114_stem_iff (drive := []) (name := ".profile".toList) (stem := []) (ext := "profile".toList) .none false
      (fs := ["x".toList]) (by simp [Plain]) (by simp [Plain]) (Or.inl ⟨rfl, by simp⟩)).mp h
    simp at this

/-- C114: FORCEEXT gives the path with the new extension exactly if this is not empty (names with another character than a
dot before their last dot, in a folder). -/
theorem C114_forceext_iff {drive name stem ext : Str} (root : Bool) {fs : List Str}
    (hr : root = true ∨ fs ≠ [])
    (hn : Plain name) (hs : Splits name stem ext) (hdots : '.' ∉ name ∨ ∃ c ∈ stem, c ≠ '.') (e : Str) :
    forceext .windows (.value (path drive root fs name)) (.value e) =
        path drive root fs (stem ++ if e = [] then [] else '.' :: e) ↔ e ≠ [] := by
  have ha : Ends .windows (drive ++ folders root fs) := by
    rcases ends_folders root fs with h0 | ⟨b, x, hb, hx⟩
    · exfalso
      rcases hr with rfl | hr
      · simp [folders] at h0
      · cases fs with
        | nil => exact hr rfl
        | cons f fs => simp [folders] at h0
    · exact Or.inr ⟨drive ++ b, x, by rw [hb, List.append_assoc], hx⟩
  have key : (splitext .windows (path drive root fs name)).1 = drive ++ folders root fs ++ stem := by
    rcases hs with ⟨rfl, hx⟩ | ⟨rfl, hx, rfl⟩
    · have h1 : ∀ c ∈ stem, isSep .windows c = false := fun c hc => Plain.noSep hn _ c (by simp [hc])
      have h2 : ∀ c ∈ ext, isSep .windows c = false := fun c hc => Plain.noSep hn _ c (by simp [hc])
      rw [path, splitext_last ha h1 h2 hx rfl, if_neg]
      intro h
      rcases hdots with h' | h'
      · simp at h'
      · exact all_dots.mp h h'
    · rw [path, splitext_none ha (Plain.noSep hn _) hx]
  simp only [forceext, Arg.get, key]
  cases e with
  | nil =>
    simp only [path, if_true, List.append_nil, ne_eq, not_true, iff_false]
    intro h
    have := congrArg List.length h
    simp at this
  | cons c e => simp [path]

example : forceext .windows (.value "d\\a.txt".toList) (.value "bak".toList) = "d\\a.bak".toList :=
  (C114_forceext_iff (drive := []) (name := "a.txt".toList) (stem := "a".toList) (ext := "txt".toList) false
    (fs := ["d".toList]) (by simp) (by simp [Plain]) (Or.inl ⟨rfl, by simp⟩) (Or.inr ⟨'a', by simp, by decide⟩)
    "bak".toList).mpr (by simp)

/-- C114: on other systems than Windows backslashes separate nothing: the name is the whole path, and there are no
path and no drive. -/
theorem C114_posix_fails {p : Str} (h : '/' ∉ p) :
    justfname .posix (.value p) = p ∧ justpath .posix (.value p) = [] ∧ justdrive .posix (.value p) = [] := by
  have hs : ∀ c ∈ p, isSep .posix c = false := by
    intro c hc
    have : c ≠ '/' := by rintro rfl; exact h hc
    simp [isSep, this]
  have h1 := tail_eq (os := .posix) (a := []) (Or.inl rfl) hs
  have h2 := head_eq (os := .posix) (a := []) (Or.inl rfl) hs
  simp only [List.nil_append] at h1 h2
  have hd : splitdrive .posix p = ([], p) := by unfold splitdrive; rfl
  simp [justfname, justpath, justdrive, basename, dirname, Arg.get, hd, h1, h2, rstripSep]

example : justfname .posix (.value "C:\\Data\\a.txt".toList) = "C:\\Data\\a.txt".toList :=
  (C114_posix_fails (by simp)).1

namespace PathFnsAux

theorem toLower_eq {c d : Char} (hd : d.toNat < 97) (h : c.toLower = d) : c = d := by
  unfold Char.toLower at h
  split at h
  · rename_i hc
    have h1 : 65 ≤ c.val.toNat := hc.1
    have h2 : c.val.toNat ≤ 90 := hc.2
    have h3 := congrArg (fun c => c.val.toNat) h
    simp only [UInt32.toNat_add] at h3
    have e1 : ('a'.val - 'A'.val).toNat = 32 := by decide
    have e2 : d.val.toNat < 97 := hd
    rw [e1] at h3
    omega
  · exact h

theorem plain_lower {s : Str} (h : Plain s) : Plain (lower s) := by
  intro c hc
  obtain ⟨d, hd, rfl⟩ := List.mem_map.mp hc
  have := h d hd
  exact ⟨fun e => this.1 (toLower_eq (by decide) e), fun e => this.2.1 (toLower_eq (by decide) e),
    fun e => this.2.2 (toLower_eq (by decide) e)⟩

theorem alpha_lower {c : Char} (h : c.isAlpha = true) : c.toLower.isAlpha = true := by
  have key : ∀ n : Fin 128, (Char.ofNat n).isAlpha = true → (Char.ofNat n).toLower.isAlpha = true := by decide +kernel
  have hl : c.toNat < 128 := by
    simp only [Char.isAlpha, Char.isUpper, Char.isLower, Bool.or_eq_true, Bool.and_eq_true, decide_eq_true_eq, ge_iff_le,
      UInt32.le_iff_toNat_le] at h
    rcases h with ⟨_, h⟩ | ⟨_, h⟩
    · exact Nat.lt_of_le_of_lt h (by decide)
    · exact Nat.lt_of_le_of_lt h (by decide)
  have := key ⟨c.toNat, hl⟩
  simp only [Char.ofNat_toNat] at this
  exact this h

theorem drive_lower {d : Str} (h : Drive d) : Drive (lower d) := by
  cases h with
  | none => exact .none
  | letter c h => exact .letter c.toLower (alpha_lower h)

theorem lower_path (d : Str) (root : Bool) (fs : List Str) (n : Str) :
    lower (path d root fs n) = path (lower d) root (fs.map lower) (lower n) := by
  have : (fs.flatMap (· ++ ['\\'])).map Char.toLower = (fs.map lower).flatMap (· ++ ['\\']) := by
    induction fs with
    | nil => rfl
    | cons f fs ih =>
      rw [List.flatMap_cons, List.map_append, ih]
      simp [lower]
  cases root <;> simp [lower, path, folders, this]

theorem lower_eq {s : Str} : lower s = s ↔ ∀ c ∈ s, c.toLower = c := by
  induction s with
  | nil => simp [lower]
  | cons c s ih =>
    simp only [lower, List.map_cons, List.cons.injEq, List.mem_cons, forall_eq_or_imp] at ih ⊢
    rw [ih]

end PathFnsAux

/-- C114: of a path that is written as a literal, JUSTFNAME gives the name, and JUSTDRIVE the drive, exactly if
it has no capital letters: all letters become small. -/
theorem C114_literal_iff {drive name : Str} (hd : Drive drive) (root : Bool) {fs : List Str} (hf : ∀ f ∈ fs, Plain f)
    (hn : Plain name) :
    (justfname .windows (.literal (path drive root fs name)) = name ↔ ∀ c ∈ name, c.toLower = c) ∧
      (justdrive .windows (.literal (path drive root fs name)) = drive ↔ ∀ c ∈ drive, c.toLower = c) := by
  have h := C114_name_partial (drive_lower hd) root (fs := fs.map lower)
    (fun f hm => by obtain ⟨g, hg, rfl⟩ := List.mem_map.mp hm; exact plain_lower (hf g hg)) (plain_lower hn)
  rw [← lower_path] at h
  constructor
  · rw [← lower_eq]
    exact ⟨fun e => h.1.symm.trans e, fun e => h.1.trans e⟩
  · rw [← lower_eq]
    exact ⟨fun e => h.2.symm.trans e, fun e => h.2.trans e⟩

example : justfname .windows (.literal "C:\\Data\\README.txt".toList) ≠ "README.txt".toList := by
  rw [show "C:\\Data\\README.txt".toList = path "C:".toList true ["Data".toList] "README.txt".toList from by decide +kernel]
  intro h
  have := (C114_literal_iff (.letter 'C' (by decide)) true (by simp [Plain]) (by simp [Plain])).1.mp h 'R' (by simp)
  exact absurd this (by decide)

end Props
