import Verif.Model.Do
/-!
# DO runs the converted program (C81)
-/
namespace Props
open Model.Do
open Spec.Files (Str lower)
open Model.Files (splitext outName fileExt basename)
open Model.ModuleNames (validIdentifier isWord)

namespace DoSpec

/-- The name of a program without its kind: in lower case, without dots and slashes. -/
structure Stem (s : Str) : Prop where
  nonempty : s ≠ []
  lower : lower s = s
  noDot : '.' ∉ s
  noSlash : '/' ∉ s

/-- The reserved words of Python. -/
def reserved : List Str :=
  ["False", "None", "True", "and", "as", "assert", "async", "await", "break", "class", "continue", "def", "del", "elif", "else",
    "except", "finally", "for", "from", "global", "if", "import", "in", "is", "lambda", "nonlocal", "not", "or", "pass", "raise",
    "return", "try", "while", "with", "yield"].map String.toList

/-- A name of a function in FoxPro that is no reserved word of Python. -/
def Function (f : Str) : Prop :=
  (∃ c r, f = c :: r ∧ (c.isAlpha = true ∨ c = '_') ∧ ∀ x ∈ r, x.isAlphanum = true ∨ x = '_') ∧ f ∉ reserved

/-- The name begins with a digit. -/
def DigitFirst (s : Str) : Prop := ∃ c, s.head? = some c ∧ c.isDigit = true

/-- What the call of a function in a module that may exist does. -/
def expected (w : World) (mod f : Str) : Ran :=
  match w.modules mod with
  | none => .importError
  | some fs => if f ∈ fs then .inModule mod f else .attributeError

/-- The module that the conversion of a file writes. -/
def Writes (file mod : Str) : Prop := outName file = mod ++ ".py".toList

end DoSpec
open DoSpec

namespace DoAux

theorem takeWhile_all {α : Type} {p : α → Bool} {l : List α} (h : ∀ x ∈ l, p x = true) : l.takeWhile p = l := by
  induction l with
  | nil => rfl
  | cons a t ih =>
    rw [List.takeWhile_cons, h a (by simp)]
    simp [ih fun x hx => h x (List.mem_cons_of_mem _ hx)]

theorem dropWhile_all {α : Type} {p : α → Bool} {l : List α} (h : ∀ x ∈ l, p x = true) : l.dropWhile p = [] := by
  induction l with
  | nil => rfl
  | cons a t ih =>
    rw [List.dropWhile_cons, h a (by simp)]
    simp [ih fun x hx => h x (List.mem_cons_of_mem _ hx)]

theorem split_stem {s : Str} (h : '.' ∉ s) : splitext s = (s, []) := by
  have hd : s.reverse.dropWhile (· ≠ '.') = [] :=
    dropWhile_all fun x hx => by
      have : x ∈ s := List.mem_reverse.mp hx
      simpa using fun e : x = '.' => h (e ▸ this)
  unfold splitext
  simp only [hd]

theorem split_ext {s e : Str} (hs : s ≠ []) (h : '.' ∉ s) (he : '.' ∉ e) : splitext (s ++ '.' :: e) = (s, '.' :: e) := by
  have hall : ∀ x ∈ e.reverse, (decide (x ≠ '.')) = true := fun x hx => by
    have : x ∈ e := List.mem_reverse.mp hx
    simpa using fun h' : x = '.' => he (h' ▸ this)
  have hrev : (s ++ '.' :: e).reverse = e.reverse ++ '.' :: s.reverse := by simp
  have h1 : (s ++ '.' :: e).reverse.takeWhile (· ≠ '.') = e.reverse := by
    rw [hrev, List.takeWhile_append, takeWhile_all hall]
    simp
  have h2 : (s ++ '.' :: e).reverse.dropWhile (· ≠ '.') = '.' :: s.reverse := by
    rw [hrev, List.dropWhile_append, dropWhile_all hall]
    simp
  have hany : s.reverse.all (· = '.') = false := by
    cases hs' : s.reverse with
    | nil => exact absurd (List.reverse_eq_nil_iff.mp hs') hs
    | cons a t =>
      have : a ∈ s := List.mem_reverse.mp (by rw [hs']; simp)
      have : a ≠ '.' := fun e => h (e ▸ this)
      simp [this]
  unfold splitext
  simp only [h1, h2, hany]
  simp

theorem base {s : Str} (h : '/' ∉ s) : basename s = s := by
  unfold basename
  rw [takeWhile_all fun x hx => by
    have : x ∈ s := List.mem_reverse.mp hx
    simpa using fun e : x = '/' => h (e ▸ this)]
  simp

theorem lower_append (a b : Str) : lower (a ++ b) = lower a ++ lower b := by simp [lower]

/-- The module of a program. -/
theorem out_eq {s e : Str} (hs : Stem s) (he : '.' ∉ e) (he' : '/' ∉ e) (hl : lower e = e) :
    outName (s ++ '.' :: e) = s ++ (if '.' :: e = ".prg".toList then [] else '_' :: e) ++ ".py".toList := by
  have hslash : '/' ∉ s ++ '.' :: e := by simp [hs.noSlash, he']
  have hlow : lower (s ++ '.' :: e) = s ++ '.' :: e := by
    rw [lower_append, hs.lower]
    have : lower ('.' :: e) = '.' :: lower e := rfl
    rw [this, hl]
  have hmap : (e.map fun c => if c = '.' then '_' else c) = e := by
    conv => rhs; rw [← List.map_id e]
    apply List.map_congr_left
    intro c hc
    have : c ≠ '.' := fun h => he (h ▸ hc)
    simp [this]
  unfold outName
  simp only [fileExt, hlow, base hslash, split_ext hs.nonempty hs.noDot he]
  split
  · rfl
  · simp [hmap]

theorem suffix_take {s : Str} : prg.isSuffixOf (s ++ prg) = true ∧ (s ++ prg).take ((s ++ prg).length - 4) = s := by
  constructor
  · rw [List.isSuffixOf_iff_suffix]; exact List.suffix_append _ _
  · simp [prg]

theorem not_prg {s : Str} (h : '.' ∉ s) : prg.isSuffixOf s = false := by
  cases hp : prg.isSuffixOf s with
  | false => rfl
  | true =>
    rw [List.isSuffixOf_iff_suffix] at hp
    exact absurd (hp.subset (by simp [prg])) h

theorem inFile_stem {s f : Str} (h : '.' ∉ s) : inFile s f = if validIdentifier s then .imported s f else .byName s f := by
  simp [inFile, not_prg h]

theorem reserved_eq : reserved = Model.ModuleNames.keywords := by decide

theorem alpha_not_digit {c : Char} (h : c.isAlpha = true ∨ c = '_') : c.isDigit = false := by
  rcases h with h | rfl
  · cases hd : c.isDigit with
    | false => rfl
    | true =>
      simp only [Char.isAlpha, Char.isUpper, Char.isLower, Char.isDigit, Bool.or_eq_true, Bool.and_eq_true, decide_eq_true_eq] at h hd
      have h1 : c.val.toNat ≤ 57 := hd.2
      rcases h with h | h
      · have h2 : 65 ≤ c.val.toNat := h.1
        omega
      · have h2 : 97 ≤ c.val.toNat := h.1
        omega
  · decide

theorem pyName_function {f : Str} (h : Function f) : pyName f = true := by
  obtain ⟨⟨c, r, rfl, h1, h2⟩, h3⟩ := h
  have hall : (c :: r).all isWord = true := by
    rw [List.all_eq_true]
    intro x hx
    rcases List.mem_cons.mp hx with rfl | hx
    · rcases h1 with h | h
      · simp [isWord, Char.isAlphanum, h]
      · simp [isWord, h]
    · simpa [isWord] using h2 x hx
  rw [reserved_eq] at h3
  simp [pyName, validIdentifier, hall, alpha_not_digit h1, h3]

theorem pyName_stem {s : Str} (hd : ¬ DigitFirst s) (hv : validIdentifier s = true) : pyName s = true := by
  unfold pyName
  rw [hv]
  cases s with
  | nil => rfl
  | cons c t =>
    have : c.isDigit = false := by
      cases h : c.isDigit with
      | false => rfl
      | true => exact absurd ⟨c, rfl, h⟩ hd
    simp [this]

theorem run_inFile {w : World} {s f : Str} (h : '.' ∉ s) (hl : lower s = s) (hd : ¬ DigitFirst s) (hv : s ≠ "vfpfunc".toList)
    (hf : Function f) : run w (inFile s f) = expected w s f := by
  rw [inFile_stem h]
  cases hi : validIdentifier s with
  | true =>
    simp only [if_true, run, pyName_stem hd hi, pyName_function hf]
    rw [if_neg (by decide), if_neg hv]
    rfl
  | false =>
    simp only [Bool.false_eq_true, if_false, run, pyName_function hf, h, hl, Bool.not_true]
    rfl

theorem noDot_function {f : Str} (h : Function f) : '.' ∉ f := by
  obtain ⟨⟨c, r, rfl, h1, h2⟩, _⟩ := h
  intro hm
  rcases List.mem_cons.mp hm with rfl | hm
  · revert h1; decide
  · have := h2 _ hm
    revert this; decide

theorem main_function : Function "MAIN".toList :=
  ⟨⟨'M', "AIN".toList, rfl, .inl (by decide), by decide⟩, by decide⟩

end DoAux
open DoAux

/-- **C81**: `DO name.prg`, `DO name.mpr` and `DO name.spr` run the main program of the module that the
conversion of that file writes, if there is one (names that do not begin with a digit). -/
theorem C81_program (w : World) (functions : List Str) (filename s : Str) (hs : Stem s) (hd : ¬ DigitFirst s)
    (hv : s ≠ "vfpfunc".toList) (e : Str)
    (he : e ∈ ["prg".toList, "mpr".toList, "spr".toList]) (hown : s ++ '.' :: e ∉ functions) :
    ∃ mod, Writes (s ++ '.' :: e) mod ∧
      run w (convertDo functions filename (s ++ '.' :: e) []) = expected w mod "MAIN".toList := by
  replace he : '.' :: e ∈ [prg, mpr, spr] := by
    simp only [List.mem_cons, List.not_mem_nil, or_false] at he
    rcases he with rfl | rfl | rfl <;> decide
  have hprops : '.' ∉ e ∧ '/' ∉ e ∧ lower e = e ∧ lower ('_' :: e) = '_' :: e ∧ '.' ∉ '_' :: e := by
    simp only [List.mem_cons, prg, mpr, spr, List.not_mem_nil, or_false] at he
    rcases he with he | he | he <;> · injection he with _ he; subst he; decide
  obtain ⟨h1, h2, h3, h4, h5⟩ := hprops
  refine ⟨s ++ (if '.' :: e = ".prg".toList then [] else '_' :: e), out_eq hs h1 h2 h3, ?_⟩
  have hconv : convertDo functions filename (s ++ '.' :: e) [] = noFile functions (s ++ '.' :: e) := by
    unfold convertDo; split <;> simp
  have hmap : (('.' :: e).map fun c => if c = '.' then '_' else c) = '_' :: e := by
    simp only [List.map_cons, if_true]
    congr 1
    conv => rhs; rw [← List.map_id e]
    apply List.map_congr_left
    intro c hc
    have : c ≠ '.' := fun h => h1 (h ▸ hc)
    simp [this]
  have hno : noFile functions (s ++ '.' :: e) = inFile (s ++ (if '.' :: e = ".prg".toList then [] else '_' :: e)) "MAIN".toList := by
    unfold noFile
    rw [if_neg hown]
    simp only [split_ext hs.nonempty hs.noDot h1, he, if_true, hmap]
    simp only [List.mem_cons, List.not_mem_nil, or_false] at he
    rcases he with he | he | he <;> · rw [he]; simp [prg, mpr, spr]
  rw [hconv, hno]
  refine run_inFile ?_ ?_ ?_ ?_ main_function
  · split
    · simpa using hs.noDot
    · simpa [hs.noDot] using h1
  · split
    · simpa using hs.lower
    · rw [lower_append, hs.lower, h4]
  · rintro ⟨c, hc, hdig⟩
    cases s with
    | nil => exact hs.nonempty rfl
    | cons a t => exact hd ⟨c, by simpa using hc, hdig⟩
  · split
    · simpa using hv
    · rename_i hp
      intro h
      have hm : '_' ∈ "vfpfunc".toList := by rw [← h]; simp
      revert hm; decide

example : Stem "report".toList ∧ "mpr".toList ∈ ["prg".toList, "mpr".toList, "spr".toList] ∧
    convertDo [] "main".toList "report.mpr".toList [] = .imported "report_mpr".toList "MAIN".toList := 
  ⟨⟨by decide, by decide, by decide, by decide⟩, by decide, by decide +kernel⟩

/-- **C81**: `DO f IN name.prg` and `DO f IN name` run the function of the module that the conversion of
`name.prg` writes. -/
theorem C81_in_file (w : World) (functions : List Str) (filename f s : Str) (hs : Stem s) (hd : ¬ DigitFirst s)
    (hv : s ≠ "vfpfunc".toList) (hfile : s ≠ filename) (hf : Function f) :
    Writes (s ++ prg) s ∧
    run w (convertDo functions filename f (s ++ prg)) = expected w s f ∧
    run w (convertDo functions filename f s) = expected w s f := by
  have hsp : splitext (s ++ prg) = (s, prg) := split_ext (e := "prg".toList) hs.nonempty hs.noDot (by decide)
  refine ⟨?_, ?_, ?_⟩
  · have := out_eq (e := "prg".toList) hs (by decide) (by decide) (by decide)
    simpa [Writes, prg] using this
  · have hne : s ++ prg ≠ [] := by simp [prg]
    unfold convertDo
    simp only [hsp, hfile, if_false, hne]
    have : inFile (s ++ prg) f = inFile s f := by
      unfold inFile
      rw [if_pos suffix_take.1, suffix_take.2, not_prg hs.noDot]
      simp
    rw [this]
    exact run_inFile hs.noDot hs.lower hd hv hf
  · unfold convertDo
    simp only [split_stem hs.noDot, hfile, if_false, hs.nonempty]
    exact run_inFile hs.noDot hs.lower hd hv hf

/-- `DO total IN import` and `DO total IN lib`. -/
example : Stem "import".toList ∧ ¬ DigitFirst "import".toList ∧ "import".toList ≠ "main".toList ∧ Function "total".toList ∧
    convertDo [] "main".toList "total".toList "import".toList = .byName "import".toList "total".toList ∧
    convertDo [] "main".toList "total".toList "lib".toList = .imported "lib".toList "total".toList :=
  ⟨⟨by decide, by decide, by decide, by decide⟩, by rintro ⟨c, h, hd⟩; cases h; revert hd; decide, by decide,
    ⟨⟨'t', "otal".toList, rfl, .inl (by decide), by decide⟩, by decide⟩, by decide +kernel, by decide +kernel⟩

/-- **C81** fails for a program whose name is a word that begins with a digit, for a function whose name is a reserved word of
Python, and for a program called VFPFUNC: the generated program cannot be read, or the library is called. -/
theorem C81_names_fails (w : World) (functions : List Str) (filename f s : Str) (hfile : s ≠ filename) :
    (s ≠ [] → (∀ c ∈ s, c.isAlphanum = true ∨ c = '_') → DigitFirst s → run w (convertDo functions filename f s) = .syntaxError) ∧
    (Stem s → f ∈ reserved → run w (convertDo functions filename f s) = .syntaxError) ∧
    (s = "vfpfunc".toList → Function f → run w (convertDo functions filename f s) = .library f) := by
  have hconv : s ≠ [] → '.' ∉ s → convertDo functions filename f s = inFile s f := by
    intro hne hdot
    unfold convertDo
    simp only [split_stem hdot, hfile, if_false, hne]
  refine ⟨fun hne hw hd => ?_, fun hs hf => ?_, ?_⟩
  · have hdot : '.' ∉ s := fun h => by
      rcases hw '.' h with h | h <;> revert h <;> decide
    rw [hconv hne hdot, inFile_stem hdot]
    obtain ⟨c, hc, hdig⟩ := hd
    have hall : s.all isWord = true := by
      rw [List.all_eq_true]; intro x hx; simpa [isWord] using hw x hx
    have hk : s ∉ Model.ModuleNames.keywords := by
      intro hk
      have : ∀ k ∈ Model.ModuleNames.keywords, k.head?.any Char.isDigit = false := by decide
      have := this s hk
      simp [hc, hdig] at this
    have hv : validIdentifier s = true := by simp [validIdentifier, hall, hk, hne]
    simp [hv, run, pyName, hc, hdig]
  · have hp : pyName f = false := by
      have : f ∈ Model.ModuleNames.keywords := by rw [← reserved_eq]; exact hf
      simp [pyName, validIdentifier, this]
    rw [hconv hs.nonempty hs.noDot, inFile_stem hs.noDot]
    split <;> simp [run, hp]
  · rintro rfl hf
    rw [hconv (by decide) (by decide), inFile_stem (by decide), if_pos (by decide)]
    simp only [run, pyName_function hf, show pyName "vfpfunc".toList = true by decide]
    rfl

example : DigitFirst "2024".toList ∧ (∀ c ∈ "2024".toList, c.isAlphanum = true ∨ c = '_') ∧ "print".toList ∉ reserved ∧
    "import".toList ∈ reserved := ⟨⟨'2', rfl, by decide⟩, by decide, by decide, by decide⟩

/-- **C81**: `DO f` runs the function of the same file if it has one, else the function found in the
procedure files. -/
theorem C81_function (w : World) (functions : List Str) (filename f : Str) (hfn : Function f) :
    (f ∈ functions → run w (convertDo functions filename f []) = .own f) ∧
    (f ∉ functions → f ∈ w.procedures → run w (convertDo functions filename f []) = .procedure f) := by
  have hconv : convertDo functions filename f [] = noFile functions f := by
    unfold convertDo; split <;> simp
  rw [hconv]
  constructor
  · intro h; simp [noFile, h, run, pyName_function hfn]
  · intro h hp
    unfold noFile
    rw [if_neg h, split_stem (noDot_function hfn)]
    simp [run, hp, prg, mpr, spr, pyName_function hfn]

example : Function "total".toList := ⟨⟨'t', "otal".toList, rfl, .inl (by decide), by decide⟩, by decide⟩

/-- **C81** fails: `DO report`, when REPORT.PRG is a program and not a procedure, is an error. -/
theorem C81_program_fails (w : World) (functions : List Str) (filename f : Str) (hfn : Function f) (hown : f ∉ functions)
    (hp : f ∉ w.procedures) :
    run w (convertDo functions filename f []) = .notAProcedure := by
  have hconv : convertDo functions filename f [] = noFile functions f := by
    unfold convertDo; split <;> simp
  rw [hconv]
  unfold noFile
  rw [if_neg hown, split_stem (noDot_function hfn)]
  simp [run, hp, prg, mpr, spr, pyName_function hfn]

/-- The converted program REPORT.PRG. -/
def exWorld : World := ⟨[], fun m => if m = "report".toList then some ["MAIN".toList] else none⟩

example : Function "report".toList ∧ "report".toList ∉ exWorld.procedures ∧ exWorld.modules "report".toList = some ["MAIN".toList] ∧
    Writes "Report.prg".toList "report".toList :=
  ⟨⟨⟨'r', "eport".toList, rfl, .inl (by decide), by decide⟩, by decide⟩, by decide, rfl, (by decide +kernel : outName "Report.prg".toList = "report".toList ++ ".py".toList)⟩

/-- **C81** fails: `DO f IN name.mpr` always asks for a module that the converter does not write. -/
theorem C81_in_menu_fails (w : World) (functions : List Str) (filename f s : Str) (hs : Stem s) (hfile : s ≠ filename) (hf : Function f) :
    run w (convertDo functions filename f (s ++ mpr)) = .importError := by
  have hsp : splitext (s ++ mpr) = (s, mpr) := split_ext (e := "mpr".toList) hs.nonempty hs.noDot (by decide)
  have hne : s ++ mpr ≠ [] := by simp [mpr]
  have hnp : prg.isSuffixOf (s ++ mpr) = false := by
    cases hp : prg.isSuffixOf (s ++ mpr) with
    | false => rfl
    | true =>
      rw [List.isSuffixOf_iff_suffix] at hp
      have := List.suffix_of_suffix_length_le hp (List.suffix_append s mpr) (by decide)
      exact absurd this (by decide)
  have hdot : '.' ∈ s ++ mpr := by simp [mpr]
  have hv : validIdentifier (s ++ mpr) = false := by
    have : (s ++ mpr).all isWord = false := by
      cases ha : (s ++ mpr).all isWord with
      | false => rfl
      | true =>
        rw [List.all_eq_true] at ha
        exact absurd (ha '.' hdot) (by decide)
    simp only [validIdentifier, this]
    simp
  unfold convertDo
  simp only [hsp, hfile, if_false, hne]
  unfold inFile
  rw [hnp]
  simp only [Bool.false_eq_true, if_false, hv, run, pyName_function hf, Bool.not_true, hdot, if_true]

end Props
