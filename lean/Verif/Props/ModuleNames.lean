import Verif.Model.ModuleNames
/-!
# Names in the generated module (C103, C104) and printed lines (C105)
-/
namespace Props
open Model.ModuleNames

namespace ModuleNameSpec

/-- The first characters of names. -/
def Start (c : Char) : Prop := c.isAlpha = true ∨ c = '_'

/-- A name of FoxPro. -/
def IsName (s : Str) : Prop := ∃ c r, s = c :: r ∧ Start c ∧ ∀ x ∈ r, x.isAlphanum = true ∨ x = '_'

/-- FoxPro does not distinguish capital and small letters. -/
def SameName (s t : Str) : Prop := s.map Char.toLower = t.map Char.toLower

/-- The reserved words of Python 3. -/
def reserved : List Str :=
  names["False", "None", "True", "and", "as", "assert", "async", "await", "break", "class", "continue", "def", "del", "elif", "else",
    "except", "finally", "for", "from", "global", "if", "import", "in", "is", "lambda", "nonlocal", "not", "or", "pass", "raise",
    "return", "try", "while", "with", "yield"]

/-- What the code of a module uses by these names: modules and decorators of the library, modules of Python and functions of
Python. -/
def usedNames : List Str :=
  names["vfpfunc", "parameters", "lparameters", "vfpclass", "dt", "os", "math", "random", "base64", "shutil", "subprocess", "sys",
    "send2trash", "print", "len", "int", "float", "ord", "chr", "abs", "round", "max", "min", "sum", "any", "all", "range", "open",
    "getattr", "setattr", "locals", "super", "bool", "str"]

/-- A name of Python. -/
def PyName (s : Str) : Prop := (∃ c r, s = c :: r ∧ Start c ∧ ∀ x ∈ r, x.isAlphanum = true ∨ x = '_') ∧ s ∉ reserved

/-- What Python can read and is a variable of the program: the name of an attribute, or an expression in brackets, here
consisting of a single word.  A name alone is a variable of the Python function. -/
def Readable : Access → Prop
  | .attr _ n => PyName n
  | .index _ c => PyName c
  | .bare _ => False
  | _ => True

/-- Code that asks the table of functions for the function called `n`: `F.n` for what Python reads as a name, or `F['n']`. -/
def AsksFor (a : Access) (n : Str) : Prop :=
  PyName n ∧ a = .attr ['F'] n ∨ IsName n ∧ a = .index ['F'] (['\''] ++ n ++ ['\''])

/-- The name has a letter. -/
def HasLetter (s : Str) : Prop := ∃ c ∈ s, c.isAlpha = true

/-- The text of a statement: its expressions, separated by blanks. -/
def said (p : Print) : Str := [' '].intercalate p.args

/-- What FoxPro shows: `?` begins a new line, `??` goes on in the last one. -/
def foxOutput (ps : List Print) : Str := ps.flatMap fun p => (if p.marks = 1 then ['\n'] else []) ++ said p

/-- The lines of a text that are not empty; `acc` is the line that has begun. -/
def linesFrom : Str → Str → List Str
  | acc, [] => if acc = [] then [] else [acc]
  | acc, c :: s => if c = '\n' then (if acc = [] then linesFrom [] s else acc :: linesFrom [] s) else linesFrom (acc ++ [c]) s
def lines (s : Str) : List Str := linesFrom [] s

/-- One or two question marks and a text of one line. -/
def Ordinary (p : Print) : Prop := (p.marks = 1 ∨ p.marks = 2) ∧ said p ≠ [] ∧ '\n' ∉ said p

end ModuleNameSpec
open ModuleNameSpec

namespace ModuleNameAux

theorem ascii_of_word {c : Char} (h : c.isAlphanum = true) : c.toNat < 128 := by
  simp only [Char.isAlphanum, Char.isAlpha, Char.isUpper, Char.isLower, Char.isDigit, Bool.or_eq_true, Bool.and_eq_true, decide_eq_true_eq, ge_iff_le,
    UInt32.le_iff_toNat_le, Char.toNat] at h ⊢
  rcases h with (⟨_, h⟩ | ⟨_, h⟩) | ⟨_, h⟩
  all_goals exact Nat.lt_of_le_of_lt h (by decide)

theorem word_table : ∀ n : Fin 128, ((Char.ofNat n).isAlphanum = true → (Char.ofNat n).toLower.isAlphanum = true) ∧
    ((Char.ofNat n).isAlpha = true → (Char.ofNat n).toLower.isAlpha = true) := by decide +kernel

theorem toLower_word {c : Char} (h : c.isAlphanum = true ∨ c = '_') : c.toLower.isAlphanum = true ∨ c.toLower = '_' := by
  rcases h with h | rfl
  · have := (word_table ⟨c.toNat, ascii_of_word h⟩).1
    simp only [Char.ofNat_toNat] at this
    exact .inl (this h)
  · exact .inr (by decide)

theorem toLower_start {c : Char} (h : Start c) : Start c.toLower := by
  rcases h with h | rfl
  · have := (word_table ⟨c.toNat, ascii_of_word (by simp [Char.isAlphanum, h])⟩).2
    simp only [Char.ofNat_toNat] at this
    exact .inl (this h)
  · exact .inr (by decide)

theorem lower_name {s : Str} (h : IsName s) : IsName (s.map Char.toLower) := by
  obtain ⟨c, r, rfl, h1, h2⟩ := h
  refine ⟨c.toLower, r.map Char.toLower, rfl, toLower_start h1, fun x hx => ?_⟩
  obtain ⟨y, hy, rfl⟩ := List.mem_map.mp hx
  exact toLower_word (h2 y hy)

theorem word_of_start {c : Char} (h : Start c) : c.isAlphanum = true ∨ c = '_' := by
  rcases h with h | h
  · exact .inl (by simp [Char.isAlphanum, h])
  · exact .inr h

theorem reserved_eq : reserved = keywords := rfl

theorem usedNames_eq : usedNames = helpers := rfl

theorem valid_iff {s : Str} (h : IsName s) : validIdentifier s = true ↔ s ∉ reserved := by
  rw [reserved_eq]
  obtain ⟨c, r, rfl, h1, h2⟩ := h
  have hall : (c :: r).all isWord = true := by
    rw [List.all_eq_true]
    intro x hx
    have : x.isAlphanum = true ∨ x = '_' := by
      rcases List.mem_cons.mp hx with rfl | hx
      · exact word_of_start h1
      · exact h2 x hx
    simpa [isWord] using this
  unfold validIdentifier
  rw [hall]
  simp

theorem identifier_eq {s : Str} (h : s.map Char.toLower ≠ "class".toList) : identifier s = s.map Char.toLower := by
  unfold identifier; simp only [h, if_false]

theorem identifier_class {s : Str} (h : s.map Char.toLower = "class".toList) : identifier s = "classtype".toList := by
  unfold identifier; simp only [h, if_true]

theorem identifier_name {s : Str} (h : IsName s) : IsName (identifier s) := by
  by_cases hc : s.map Char.toLower = "class".toList
  · rw [identifier_class hc]
    exact ⟨'c', "lasstype".toList, by decide, .inl (by decide), by decide⟩
  · rw [identifier_eq hc]; exact lower_name h

theorem scopeVal_inj {a b : Str} (h : scopeVal a = scopeVal b) : a = b := by
  unfold scopeVal at h
  split at h
  · next ha =>
    split at h
    · next hb => rw [ha, hb]
    · split at h
      · cases h
      · split at h <;> cases h
  · split at h
    · next ha =>
      split at h
      · cases h
      · split at h
        · next hb => rw [ha, hb]
        · split at h <;> cases h
    · split at h
      · split at h
        · cases h
        · split at h
          · cases h
          · split at h <;> cases h
            rfl
      · split at h
        · cases h
        · split at h
          · cases h
          · split at h <;> cases h
            rfl

theorem scopeVal_not_bare (a b : Str) : scopeVal a ≠ .bare b := by
  unfold scopeVal
  split
  · exact fun h => by cases h
  · split
    · exact fun h => by cases h
    · split <;> exact fun h => by cases h

theorem letter_table : ∀ n : Fin 128, ((Char.ofNat n).isAlpha = true ↔ (Char.ofNat n).toLower.isLower = true) ∧
    (Char.ofNat n).toLower.isUpper = false := by decide +kernel

theorem letter_lower {c : Char} (h : c.isAlphanum = true ∨ c = '_') :
    (c.isAlpha = true ↔ c.toLower.isLower = true) ∧ c.toLower.isUpper = false := by
  have hc : c.toNat < 128 := by
    rcases h with h | rfl
    · exact ascii_of_word h
    · decide
  have := letter_table ⟨c.toNat, hc⟩
  simpa only [Char.ofNat_toNat] using this

theorem name_words {s : Str} (h : IsName s) : ∀ c ∈ s, c.isAlphanum = true ∨ c = '_' := by
  obtain ⟨c, r, rfl, h1, h2⟩ := h
  intro x hx
  rcases List.mem_cons.mp hx with rfl | hx
  · exact word_of_start h1
  · exact h2 x hx

theorem no_upper {s : Str} (h : IsName s) : (s.map Char.toLower).any Char.isUpper = false := by
  rw [List.any_eq_false]
  intro x hx
  obtain ⟨y, hy, rfl⟩ := List.mem_map.mp hx
  rw [(letter_lower (name_words h y hy)).2]; decide

theorem keyword_letter : ∀ k ∈ reserved, k.any Char.isLower = true := by decide

theorem islower_iff {s : Str} (h : IsName s) : islower (s.map Char.toLower) = true ↔ HasLetter s := by
  have hw := name_words h
  have hu := no_upper h
  unfold islower HasLetter
  rw [hu]
  simp only [List.any_map, List.any_eq_true, Function.comp_apply, Bool.not_false, Bool.and_true]
  exact ⟨fun ⟨x, hx, hl⟩ => ⟨x, hx, (letter_lower (hw x hx)).1.mpr hl⟩, fun ⟨x, hx, hl⟩ => ⟨x, hx, (letter_lower (hw x hx)).1.mp hl⟩⟩

end ModuleNameAux
open ModuleNameAux

/-! ## C103: variables -/

/-- C103: the code of a variable can be read by Python and is a variable of the program.  Missing: names that
are keywords of Python (`C103_keyword_fails`) and names without letters (`C103_letter_fails`). -/
theorem C103_variable_partial (s : Str) (hs : IsName s) (hk : s.map Char.toLower ∉ reserved) (hl : HasLetter s) :
    Readable (variable_ s) := by
  have hc : s.map Char.toLower ≠ "class".toList := by rintro h; rw [h] at hk; exact hk (by decide)
  unfold variable_
  rw [identifier_eq hc, if_pos ((islower_iff hs).mpr hl)]
  unfold scopeVal
  split
  · trivial
  · split
    · trivial
    · rw [if_pos ((valid_iff (lower_name hs)).mpr hk)]
      exact ⟨lower_name hs, hk⟩

example : variable_ "Amount".toList = .attr "S".toList "amount".toList ∧ Readable (variable_ "Amount".toList) :=
  ⟨by decide, C103_variable_partial _ ⟨'A', "mount".toList, by decide, .inl (by decide), by decide⟩ (by decide) ⟨'A', by decide, by decide⟩⟩

/-- C103: different names, in the sense of FoxPro, have different code.  Missing: a variable called CLASS
(`C103_class_fails`). -/
theorem C103_distinct_partial (s t : Str) (hs : s.map Char.toLower ≠ "class".toList) (ht : t.map Char.toLower ≠ "class".toList) :
    variable_ s = variable_ t ↔ SameName s t := by
  unfold variable_ SameName
  rw [identifier_eq hs, identifier_eq ht]
  refine ⟨fun h => ?_, fun h => by rw [h]⟩
  split at h
  · split at h
    · exact scopeVal_inj h
    · exact absurd h (scopeVal_not_bare _ _)
  · split at h
    · exact absurd h.symm (scopeVal_not_bare _ _)
    · exact Access.bare.inj h

example : variable_ "Amount".toList = variable_ "aMOUNT".toList ∧ variable_ "amount".toList ≠ variable_ "amounts".toList :=
  ⟨(C103_distinct_partial _ _ (by decide) (by decide)).mpr (by unfold SameName; decide), fun h => absurd ((C103_distinct_partial _ _ (by decide) (by decide)).mp h) (by unfold SameName; decide)⟩

/-- C103 fails for every keyword of Python other than `class`: the code cannot be read. -/
theorem C103_keyword_fails (s : Str) (hs : IsName s) (hk : s.map Char.toLower ∈ reserved) (hc : s.map Char.toLower ≠ "class".toList) :
    variable_ s = .index "S".toList (s.map Char.toLower) ∧ ¬ Readable (variable_ s) := by
  have hv : validIdentifier (s.map Char.toLower) = false := by
    cases h : validIdentifier (s.map Char.toLower) with
    | false => rfl
    | true => exact absurd hk ((valid_iff (lower_name hs)).mp h)
  have h1 : s.map Char.toLower ≠ "this".toList := fun h => absurd hk (by rw [h]; decide)
  have h2 : s.map Char.toLower ≠ "thisform".toList := fun h => absurd hk (by rw [h]; decide)
  have : variable_ s = .index "S".toList (s.map Char.toLower) := by
    unfold variable_ scopeVal
    rw [identifier_eq hc, if_neg h1, if_neg h2, hv,
      if_pos (by unfold islower; rw [keyword_letter _ hk, no_upper hs]; rfl)]; rfl
  refine ⟨this, ?_⟩
  rw [this]
  exact fun h => h.2 hk

example : variable_ "Pass".toList = .index "S".toList "pass".toList :=
  (C103_keyword_fails "Pass".toList ⟨'P', "ass".toList, by decide, .inl (by decide), by decide⟩ (by decide) (by decide)).1

/-- C103 fails for every name without letters: it becomes a variable of the Python function, which no other
procedure sees and no declaration creates. -/
theorem C103_letter_fails (s : Str) (hs : IsName s) (hl : ¬ HasLetter s) :
    variable_ s = .bare (s.map Char.toLower) ∧ ¬ Readable (variable_ s) := by
  have hc : s.map Char.toLower ≠ "class".toList := by
    intro h
    exact hl ((islower_iff hs).mp (by rw [h]; decide))
  have : variable_ s = .bare (s.map Char.toLower) := by
    unfold variable_
    rw [identifier_eq hc, if_neg (fun h => hl ((islower_iff hs).mp h))]
  exact ⟨this, by rw [this]; exact id⟩

example : variable_ "_1".toList = .bare "_1".toList :=
  (C103_letter_fails "_1".toList ⟨'_', "1".toList, by decide, .inr rfl, by decide⟩ (by rintro ⟨c, hc, h⟩; revert c; decide)).1

/-- C103 fails for CLASS: it is the same variable as CLASSTYPE. -/
theorem C103_class_fails (s t : Str) (hs : s.map Char.toLower = "class".toList) (ht : t.map Char.toLower = "classtype".toList) :
    variable_ s = variable_ t ∧ ¬ SameName s t := by
  unfold variable_ SameName
  rw [identifier_class hs, identifier_eq (by rw [ht]; decide), ht, hs]
  exact ⟨rfl, by decide⟩

example : variable_ "Class".toList = variable_ "classType".toList := (C103_class_fails _ _ (by decide) (by decide)).1

/-! ## C104: procedures -/

namespace ModuleNameAux

theorem lookupFrom_none {n : Str} {ps : List Str} (h : ∀ p ∈ ps, identifier p ≠ n) (i : Nat) (b : Binding) : lookupFrom n i ps b = b := by
  induction ps generalizing i b with
  | nil => rfl
  | cons p ps ih =>
    rw [lookupFrom, if_neg (h p (List.mem_cons_self ..))]
    exact ih (fun q hq => h q (List.mem_cons_of_mem _ hq)) _ _

theorem lookupFrom_split {n p : Str} {l r : List Str} (hp : identifier p = n) (hr : ∀ q ∈ r, identifier q ≠ n) (i : Nat) (b : Binding) :
    lookupFrom n i (l ++ p :: r) b = .proc (i + l.length) := by
  induction l generalizing i b with
  | nil =>
    show lookupFrom n (i + 1) r (if identifier p = n then .proc i else b) = _
    rw [if_pos hp, lookupFrom_none hr]; rfl
  | cons x l ih =>
    show lookupFrom n (i + 1) (l ++ p :: r) _ = _
    rw [ih]; simp; omega

theorem last_split {n : Str} : ∀ {ps : List Str}, (∃ p ∈ ps, identifier p = n) →
    ∃ l p r, ps = l ++ p :: r ∧ identifier p = n ∧ ∀ q ∈ r, identifier q ≠ n
  | [], h => by obtain ⟨p, hp, _⟩ := h; cases hp
  | x :: ps, h => by
    by_cases hr : ∃ p ∈ ps, identifier p = n
    · obtain ⟨l, p, r, rfl, h1, h2⟩ := last_split hr
      exact ⟨x :: l, p, r, rfl, h1, h2⟩
    · obtain ⟨p, hp, he⟩ := h
      rcases List.mem_cons.mp hp with rfl | hp
      · exact ⟨[], p, ps, rfl, he, fun q hq hqe => hr ⟨q, hq, hqe⟩⟩
      · exact absurd ⟨p, hp, he⟩ hr

end ModuleNameAux

/-- C104: every procedure of the program is defined under its name, if no other one has that name. -/
theorem C104_defined (l r : List Str) (p : Str) (hr : ∀ q ∈ r, identifier q ≠ identifier p) :
    lookup (l ++ p :: r) (identifier p) = .proc l.length := by
  unfold lookup
  rw [lookupFrom_split rfl hr]; simp

example : lookup ["Start".toList, "Report".toList, "done".toList] "report".toList = .proc 1 :=
  C104_defined ["Start".toList] ["done".toList] "Report".toList (by decide)

/-- C104: the call of a function that is not defined in the same file asks for the function of that name, also if the name is a
keyword of Python. -/
theorem C104_call (p : Str) (hp : IsName p) : AsksFor (scopeFunc (identifier p)) (identifier p) ∧
    (p.map Char.toLower ≠ "class".toList → AsksFor (scopeFunc (identifier p)) (p.map Char.toLower)) := by
  have h1 : AsksFor (scopeFunc (identifier p)) (identifier p) := by
    unfold scopeFunc
    by_cases hk : identifier p ∈ reserved
    · have hv : validIdentifier (identifier p) = false := by
        cases h : validIdentifier (identifier p) with
        | false => rfl
        | true => exact absurd hk ((valid_iff (identifier_name hp)).mp h)
      rw [hv]
      exact .inr ⟨identifier_name hp, by simp⟩
    · rw [if_pos ((valid_iff (identifier_name hp)).mpr hk)]
      exact .inl ⟨⟨identifier_name hp, hk⟩, rfl⟩
  exact ⟨h1, fun hc => by rw [← identifier_eq hc]; exact h1⟩

example : IsName "Import".toList ∧ scopeFunc (identifier "Import".toList) = .index "F".toList "'import'".toList ∧
    scopeFunc (identifier "Total".toList) = .attr "F".toList "total".toList :=
  ⟨⟨'I', "mport".toList, by decide, .inl (by decide), by decide⟩, by decide, by decide⟩

/-- C104: what generated code calls has its meaning exactly if no procedure of the program has that name. -/
theorem C104_helper_iff (procs : List Str) (h : Str) (hh : h ∈ usedNames) : lookup procs h = .helper ↔ ∀ p ∈ procs, identifier p ≠ h := by
  unfold lookup
  rw [usedNames_eq] at hh
  rw [if_pos (by simpa using hh)]
  constructor
  · intro he p hp hpe
    obtain ⟨l, q, r, rfl, h1, h2⟩ := last_split ⟨p, hp, hpe⟩
    rw [lookupFrom_split h1 h2] at he
    cases he
  · intro hn
    exact lookupFrom_none hn _ _

example : lookup ["report".toList] "print".toList = .helper := (C104_helper_iff _ _ (by decide)).mpr (by decide)

/-- C104 fails for every procedure that is called like something that generated code uses: the procedure replaces it. -/
theorem C104_helper_fails (procs : List Str) (p h : Str) (_ : h ∈ usedNames) (hp : p ∈ procs) (he : identifier p = h) :
    ∃ i, lookup procs h = .proc i := by
  obtain ⟨l, q, r, rfl, h1, h2⟩ := last_split ⟨p, hp, he⟩
  exact ⟨0 + l.length, by unfold lookup; exact lookupFrom_split h1 h2 _ _⟩

example : ∃ i, lookup ["main".toList, "Print".toList] "print".toList = .proc i :=
  C104_helper_fails _ "Print".toList _ (by decide) (by decide) (by decide)

/-- C104: the header of a procedure can be read by Python exactly if the name is no keyword of Python, or is CLASS. -/
theorem C104_header_iff (p : Str) (hp : IsName p) : defAccepted p = true ↔ (p.map Char.toLower ∉ reserved ∨ p.map Char.toLower = "class".toList) := by
  unfold defAccepted
  rw [valid_iff (identifier_name hp)]
  by_cases hc : p.map Char.toLower = "class".toList
  · rw [identifier_class hc]
    exact ⟨fun _ => .inr hc, fun _ => by decide⟩
  · rw [identifier_eq hc]
    exact ⟨.inl, fun h => h.resolve_right hc⟩

example : defAccepted "Report".toList = true ∧ defAccepted "Import".toList = false := by
  have h1 := C104_header_iff "Report".toList ⟨'R', "eport".toList, by decide, .inl (by decide), by decide⟩
  have h2 := C104_header_iff "Import".toList ⟨'I', "mport".toList, by decide, .inl (by decide), by decide⟩
  refine ⟨h1.mpr (.inl (by decide)), ?_⟩
  cases h : defAccepted "Import".toList with
  | false => rfl
  | true => exact absurd (h2.mp h) (by decide)

/-! ## C105: `?` and `??` -/

namespace ModuleNameAux

theorem linesFrom_text {t : Str} (ht : '\n' ∉ t) (acc r : Str) : linesFrom acc (t ++ r) = linesFrom (acc ++ t) r := by
  induction t generalizing acc with
  | nil => simp
  | cons c t ih =>
    have hc : c ≠ '\n' := fun h => ht (h ▸ List.mem_cons_self ..)
    show linesFrom acc (c :: (t ++ r)) = _
    rw [linesFrom, if_neg hc, ih (fun h => ht (List.mem_cons_of_mem _ h))]
    simp

theorem linesFrom_nl {acc : Str} (h : acc ≠ []) (r : Str) : linesFrom acc ('\n' :: r) = acc :: linesFrom [] r := by
  rw [linesFrom, if_pos rfl, if_neg h]

/-- A line that has begun goes on in the same way whatever is in front. -/
theorem linesFrom_begun (r : Str) : ∀ {acc : Str}, acc ≠ [] → ∃ h l, ∀ a, linesFrom (a ++ acc) r = (a ++ acc ++ h) :: l := by
  induction r with
  | nil =>
    intro acc h
    refine ⟨[], [], fun a => ?_⟩
    rw [linesFrom, if_neg (by simp [h])]; simp
  | cons c r ih =>
    intro acc h
    by_cases hc : c = '\n'
    · refine ⟨[], linesFrom [] r, fun a => ?_⟩
      rw [hc, linesFrom_nl (by simp [h])]; simp
    · obtain ⟨h', l, hl⟩ := ih (acc := acc ++ [c]) (by simp)
      refine ⟨c :: h', l, fun a => ?_⟩
      rw [linesFrom, if_neg hc, show a ++ acc ++ [c] = a ++ (acc ++ [c]) from by simp, hl]; simp

theorem printed_eq (p : Print) : printed (printStmt p) = said p ++ (if 1 < p.marks then [] else ['\n']) := rfl

/-- FoxPro's output without the beginning of the first line. -/
theorem lines_fox_head {p : Print} (hp : Ordinary p) (ps : List Print) :
    lines (foxOutput (p :: ps)) = linesFrom (said p) (foxOutput ps) := by
  have : foxOutput (p :: ps) = ((if p.marks = 1 then ['\n'] else []) ++ said p) ++ foxOutput ps := rfl
  unfold lines
  rw [this]
  rcases hp.1 with h | h
  · rw [h, if_pos rfl]
    show linesFrom [] ('\n' :: (said p ++ foxOutput ps)) = _
    rw [linesFrom, if_pos rfl, if_pos rfl, linesFrom_text hp.2.2]; rfl
  · rw [h, if_neg (by decide)]
    show linesFrom [] (said p ++ foxOutput ps) = _
    rw [linesFrom_text hp.2.2]; rfl

theorem lines_py_head {p : Print} (hp : Ordinary p) (ps : List Print) :
    lines (output (p :: ps)) = linesFrom (said p) ((if p.marks = 1 then ['\n'] else []) ++ output ps) := by
  have : output (p :: ps) = said p ++ ((if 1 < p.marks then [] else ['\n']) ++ output ps) := by
    show printed (printStmt p) ++ output ps = _
    rw [printed_eq]; simp
  unfold lines
  rw [this, linesFrom_text hp.2.2]
  rcases hp.1 with h | h <;> simp [h]

end ModuleNameAux

/-- C105: FoxPro's lines appear exactly if all statements have one question mark or all have two. -/
theorem C105_lines_iff (p : Print) (ps : List Print) (hp : Ordinary p) (hps : ∀ q ∈ ps, Ordinary q) :
    lines (output (p :: ps)) = lines (foxOutput (p :: ps)) ↔ ∀ q ∈ ps, q.marks = p.marks := by
  induction ps generalizing p with
  | nil =>
    refine ⟨fun _ => nofun, fun _ => ?_⟩
    rw [lines_fox_head hp, lines_py_head hp]
    rcases hp.1 with h | h
    · rw [h, if_pos rfl]
      show linesFrom (said p) ['\n'] = linesFrom (said p) []
      rw [linesFrom_nl hp.2.1, linesFrom, linesFrom, if_pos rfl, if_neg hp.2.1]
    · rw [h, if_neg (by decide)]; rfl
  | cons q ps ih =>
    have hq := hps q (List.mem_cons_self ..)
    have ih := ih q hq (fun x hx => hps x (List.mem_cons_of_mem _ hx))
    rw [lines_fox_head hp, lines_py_head hp]
    rw [lines_fox_head hq, lines_py_head hq] at ih
    have hfox : foxOutput (q :: ps) = (if q.marks = 1 then ['\n'] else []) ++ (said q ++ foxOutput ps) := by
      show (_ ++ said q) ++ foxOutput ps = _
      simp
    have hpy : output (q :: ps) = said q ++ ((if q.marks = 1 then ['\n'] else []) ++ output ps) := by
      show printed (printStmt q) ++ output ps = _
      rw [printed_eq]
      rcases hq.1 with h | h <;> simp [h]
    have hall : (∀ x ∈ q :: ps, x.marks = p.marks) ↔ q.marks = p.marks ∧ ∀ x ∈ ps, x.marks = q.marks := by
      constructor
      · intro h
        have h1 := h q (List.mem_cons_self ..)
        exact ⟨h1, fun x hx => (h x (List.mem_cons_of_mem _ hx)).trans h1.symm⟩
      · rintro ⟨h1, h2⟩ x hx
        rcases List.mem_cons.mp hx with rfl | hx
        · exact h1
        · exact (h2 x hx).trans h1
    rw [hall, hfox, hpy]
    have hne := hp.2.1
    have hqne := hq.2.1
    obtain ⟨f1, f2, hf⟩ := linesFrom_begun (foxOutput ps) hqne
    obtain ⟨o1, o2, ho⟩ := linesFrom_begun ((if q.marks = 1 then ['\n'] else []) ++ output ps) hqne
    have hf0 := hf []
    have ho0 := ho []
    simp only [List.nil_append] at hf0 ho0
    rw [hf0, ho0] at ih
    rcases hp.1 with h1 | h1 <;> rcases hq.1 with h2 | h2
    · -- both begin a line
      have a1 : linesFrom (said p) ((if p.marks = 1 then ['\n'] else []) ++ (said q ++ ((if q.marks = 1 then ['\n'] else []) ++ output ps))) =
          said p :: ((said q ++ o1) :: o2) := by
        rw [h1, if_pos rfl]
        show linesFrom (said p) ('\n' :: (said q ++ _)) = _
        rw [linesFrom_nl hne, linesFrom_text hq.2.2]
        show _ :: linesFrom (said q) _ = _
        rw [ho0]
      have a2 : linesFrom (said p) ((if q.marks = 1 then ['\n'] else []) ++ (said q ++ foxOutput ps)) = said p :: ((said q ++ f1) :: f2) := by
        rw [h2, if_pos rfl]
        show linesFrom (said p) ('\n' :: (said q ++ _)) = _
        rw [linesFrom_nl hne, linesFrom_text hq.2.2]
        show _ :: linesFrom (said q) _ = _
        rw [hf0]
      rw [a1, a2]
      simp only [List.cons.injEq, true_and] at ih ⊢
      rw [ih]
      simp [h1, h2]
    · have a1 : linesFrom (said p) ((if p.marks = 1 then ['\n'] else []) ++ (said q ++ ((if q.marks = 1 then ['\n'] else []) ++ output ps))) =
          said p :: ((said q ++ o1) :: o2) := by
        rw [h1, if_pos rfl]
        show linesFrom (said p) ('\n' :: (said q ++ _)) = _
        rw [linesFrom_nl hne, linesFrom_text hq.2.2]
        show _ :: linesFrom (said q) _ = _
        rw [ho0]
      have a2 : linesFrom (said p) ((if q.marks = 1 then ['\n'] else []) ++ (said q ++ foxOutput ps)) = (said p ++ said q ++ f1) :: f2 := by
        rw [h2, if_neg (by decide), List.nil_append, linesFrom_text hq.2.2, hf]
      rw [a1, a2]
      constructor
      · intro h
        have := congrArg List.length (List.cons.inj h).1
        have hl : 0 < (said q).length := List.length_pos_iff.mpr hqne
        simp only [List.length_append] at this; omega
      · rintro ⟨h, _⟩; omega
    · have a1 : linesFrom (said p) ((if p.marks = 1 then ['\n'] else []) ++ (said q ++ ((if q.marks = 1 then ['\n'] else []) ++ output ps))) =
          (said p ++ said q ++ o1) :: o2 := by
        rw [h1, if_neg (by decide), List.nil_append, linesFrom_text hq.2.2, ho]
      have a2 : linesFrom (said p) ((if q.marks = 1 then ['\n'] else []) ++ (said q ++ foxOutput ps)) = said p :: ((said q ++ f1) :: f2) := by
        rw [h2, if_pos rfl]
        show linesFrom (said p) ('\n' :: (said q ++ _)) = _
        rw [linesFrom_nl hne, linesFrom_text hq.2.2]
        show _ :: linesFrom (said q) _ = _
        rw [hf0]
      rw [a1, a2]
      constructor
      · intro h
        have := congrArg List.length (List.cons.inj h).1
        have hl : 0 < (said q).length := List.length_pos_iff.mpr hqne
        simp only [List.length_append] at this; omega
      · rintro ⟨h, _⟩; omega
    · have a1 : linesFrom (said p) ((if p.marks = 1 then ['\n'] else []) ++ (said q ++ ((if q.marks = 1 then ['\n'] else []) ++ output ps))) =
          (said p ++ said q ++ o1) :: o2 := by
        rw [h1, if_neg (by decide), List.nil_append, linesFrom_text hq.2.2, ho]
      have a2 : linesFrom (said p) ((if q.marks = 1 then ['\n'] else []) ++ (said q ++ foxOutput ps)) = (said p ++ said q ++ f1) :: f2 := by
        rw [h2, if_neg (by decide), List.nil_append, linesFrom_text hq.2.2, hf]
      rw [a1, a2]
      simp only [List.cons.injEq, List.append_cancel_left_eq] at ih ⊢
      rw [ih]
      simp [h1, h2]

example : lines (output [⟨1, ["a".toList, "b".toList]⟩, ⟨1, ["c".toList]⟩]) = lines (foxOutput [⟨1, ["a".toList, "b".toList]⟩, ⟨1, ["c".toList]⟩]) :=
  (C105_lines_iff ⟨1, ["a".toList, "b".toList]⟩ [⟨1, ["c".toList]⟩] ⟨.inl rfl, by decide, by decide⟩
    (by intro q hq; cases List.mem_singleton.mp hq; exact ⟨.inl rfl, by decide, by decide⟩)).mpr (by simp)

/-- C105 fails for every `?` that is followed by `??`: the second text is in a line of its own. -/
theorem C105_continue_fails (p q : Print) (hp : Ordinary p) (hq : Ordinary q) (h1 : p.marks = 1) (h2 : q.marks = 2) :
    lines (foxOutput [p, q]) = [said p ++ said q] ∧ lines (output [p, q]) = [said p, said q] := by
  constructor
  · rw [lines_fox_head hp]
    have : foxOutput [q] = said q ++ [] := by simp [foxOutput, h2]
    rw [this, linesFrom_text hq.2.2, linesFrom, if_neg (by simp [hp.2.1])]
  · rw [lines_py_head hp, h1, if_pos rfl]
    have : output [q] = said q ++ [] := by simp [output, printed_eq, h2]
    rw [this]
    show linesFrom (said p) ('\n' :: (said q ++ [])) = _
    rw [linesFrom_nl hp.2.1, linesFrom_text hq.2.2]
    show _ :: linesFrom (said q) [] = _
    rw [linesFrom, if_neg hq.2.1]

example : lines (output [⟨1, ["Total: ".toList]⟩, ⟨2, ["5".toList]⟩]) = ["Total: ".toList, "5".toList] :=
  (C105_continue_fails ⟨1, ["Total: ".toList]⟩ ⟨2, ["5".toList]⟩ ⟨.inl rfl, by decide, by decide⟩ ⟨.inr rfl, by decide, by decide⟩ rfl rfl).2

end Props
