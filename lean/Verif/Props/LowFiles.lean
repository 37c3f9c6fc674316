import Verif.Model.LowFiles
/-!
# Low-level file functions (C113)
-/
namespace Props.LowFilesSpec
open Model.LowFiles (Str ModeArg)

def crlf : Str := ['\r', '\n']

/-- A text without line ends. -/
def OneLine (s : Str) : Prop := ∀ c ∈ s, c ≠ '\r' ∧ c ≠ '\n'

/-- The value of the argument when the program runs; an expression may have any value. -/
def Means : ModeArg → Nat → Prop
  | .absent, n => n = 0
  | .num k, n => n = k
  | .code, _ => True

/-- FOPEN(f, n): 0 opens for reading, 1 for writing, 2 for both. -/
def mayRead (n : Nat) : Bool := n = 0 || n = 2
def mayWrite (n : Nat) : Bool := n = 1 || n = 2

/-- Where FSEEK counts from: the beginning, the position, the end. -/
def seekBase (position size : Nat) : Nat → Int
  | 0 => 0
  | 1 => position
  | _ => size

/-- As much of a text as the third argument of FPUTS and FWRITE says. -/
def upTo (limit : Option Nat) (s : Str) : Str := s.take (limit.getD s.length)

end Props.LowFilesSpec

namespace Props.LowFilesAux
open Model.LowFiles Props.LowFilesSpec

theorem nextChar_plain {c : Char} (h : c ≠ '\r') (s : Str) : nextChar (c :: s) = some (c, [c], s) := by
  unfold nextChar
  split <;> simp_all

theorem nextChar_crlf (s : Str) : nextChar ('\r' :: '\n' :: s) = some ('\n', ['\r', '\n'], s) := rfl

theorem readLine_line {l : Str} (hl : OneLine l) (rest : Str) :
    ∀ {n : Nat}, l.length < n → readLine n (l ++ crlf ++ rest) = (l ++ ['\n'], l ++ crlf, rest) := by
  induction l with
  | nil =>
    intro n hn
    obtain ⟨k, rfl⟩ : ∃ k, n = k + 1 := ⟨n - 1, by simp at hn; omega⟩
    simp [readLine, crlf, nextChar_crlf]
  | cons c l ih =>
    intro n hn
    obtain ⟨k, rfl⟩ : ∃ k, n = k + 1 := ⟨n - 1, by simp at hn; omega⟩
    have hc := hl c (by simp)
    have := ih (fun d hd => hl d (by simp [hd])) (n := k) (by simp at hn; omega)
    simp only [List.append_assoc] at this
    simp [readLine, nextChar_plain hc.1, hc.2, this]

theorem readLine_short {l : Str} (hl : OneLine l) (rest : Str) :
    ∀ {n : Nat}, n ≤ l.length → readLine n (l ++ rest) = (l.take n, l.take n, l.drop n ++ rest) := by
  induction l with
  | nil => intro n hn; simp at hn; subst hn; simp [readLine]
  | cons c l ih =>
    intro n hn
    cases n with
    | zero => simp [readLine]
    | succ k =>
      have hc := hl c (by simp)
      have := ih (fun d hd => hl d (by simp [hd])) (n := k) (by simp at hn; omega)
      simp [readLine, nextChar_plain hc.1, hc.2, this]

theorem dropWhile_none {s : Str} (h : OneLine s) : s.dropWhile isEnd = s := by
  cases s with
  | nil => rfl
  | cons c s =>
    have := h c (by simp)
    simp [isEnd, this.1, this.2]

theorem oneLine_reverse {s : Str} (h : OneLine s) : OneLine s.reverse := fun c hc => h c (by simpa using hc)
theorem oneLine_take {s : Str} (h : OneLine s) (n : Nat) : OneLine (s.take n) :=
  fun c hc => h c (List.mem_of_mem_take hc)

theorem stripEnds_plain {s : Str} (h : OneLine s) : stripEnds s = s := by
  simp [stripEnds, dropWhile_none h, dropWhile_none (oneLine_reverse h)]

theorem stripEnds_lf {s : Str} (h : OneLine s) : stripEnds (s ++ ['\n']) = s := by
  cases s with
  | nil => decide
  | cons c s =>
    have := h c (by simp)
    have e : ((c :: s) ++ ['\n']).dropWhile isEnd = (c :: s) ++ ['\n'] := by simp [isEnd, this.1, this.2]
    rw [stripEnds, e]
    have : ((c :: s) ++ ['\n']).reverse.dropWhile isEnd = (c :: s).reverse := by
      rw [List.reverse_append]
      show List.dropWhile isEnd ('\n' :: (c :: s).reverse) = _
      rw [List.dropWhile_cons]
      simp only [show isEnd '\n' = true from rfl, if_true]
      exact dropWhile_none (oneLine_reverse h)
    rw [this, List.reverse_reverse]

theorem fputs_eq (ls : Str) (f : File) (s : Str) (limit : Option Nat) :
    fputs ls f s limit = f.write ls (upTo limit s ++ "\r\n".toList) := by
  cases limit <;> simp [fputs, upTo]
theorem fwrite_eq (ls : Str) (f : File) (s : Str) (limit : Option Nat) :
    fwrite ls f s limit = f.write ls (upTo limit s) := by
  cases limit <;> simp [fwrite, upTo]

theorem translate_posix (s : Str) : translate ['\n'] s = s := by
  induction s with
  | nil => rfl
  | cons c s ih =>
    simp only [translate, List.flatMap_cons] at ih ⊢
    rw [ih]
    split
    · next h => subst h; rfl
    · rfl

theorem translate_append (ls s t : Str) : translate ls (s ++ t) = translate ls s ++ translate ls t := by
  simp [translate]

theorem translate_oneLine (ls : Str) {s : Str} (h : OneLine s) : translate ls s = s := by
  induction s with
  | nil => rfl
  | cons c s ih =>
    have := ih (fun d hd => h d (by simp [hd]))
    simp only [translate, List.flatMap_cons] at this ⊢
    rw [this]
    simp [(h c (by simp)).2]

/-- What `read(n)` gives: the first `n` characters in universal newline mode. -/
theorem readChars_take (n : Nat) : ∀ s : Str, '\r' ∉ s.take n → readChars n s = (s.take n, s.take n, s.drop n) := by
  induction n with
  | zero => intro s _; simp [readChars]
  | succ k ih =>
    intro s hs
    cases s with
    | nil => simp [readChars, nextChar]
    | cons c s =>
      have hc : c ≠ '\r' := by rintro rfl; simp at hs
      have := ih s (by simp at hs; exact hs.2)
      simp [readChars, nextChar_plain hc, this]

theorem readChars_no_cr (n : Nat) : ∀ s : Str, '\r' ∉ (readChars n s).1 := by
  induction n with
  | zero => intro s; simp [readChars]
  | succ k ih =>
    intro s
    simp only [readChars]
    split
    · simp
    · next c used rest h =>
      have hc : c ≠ '\r' := by
        unfold nextChar at h
        split at h <;> simp at h <;> obtain ⟨rfl, _⟩ := h
        · decide
        · decide
        · intro h; subst h; simp_all
      simp only [List.mem_cons, not_or]
      exact ⟨fun e => hc e.symm, ih rest⟩

end Props.LowFilesAux

namespace Props
open Model.LowFiles Props.LowFilesSpec Props.LowFilesAux

/-- C113: FOPEN of a file that exists opens it at its beginning, unchanged, for reading and writing as
the second argument says, exactly if this argument is no expression and 0 or 2; with 1 only if the
file is empty. -/
theorem C113_open_iff {arg : ModeArg} {n : Nat} (hm : Means arg n) (hn : n ≤ 2) (c : Str) :
    openFile false arg (some c) = some (.ok { before := [], after := c, readable := mayRead n, writable := mayWrite n }) ↔
      arg ≠ .code ∧ (n = 0 ∨ n = 2 ∨ n = 1 ∧ c = []) := by
  cases arg with
  | absent =>
    simp only [Means] at hm
    subst hm
    simp [openFile, openCode, opentypes, pyOpen, mayRead, mayWrite]
  | num k =>
    simp only [Means] at hm
    subst hm
    obtain rfl | rfl | rfl : n = 0 ∨ n = 1 ∨ n = 2 := by omega
    · simp [openFile, openCode, opentypes, pyOpen, mayRead, mayWrite]
    · simp [openFile, openCode, opentypes, pyOpen, mayRead, mayWrite, eq_comm]
    · simp [openFile, openCode, opentypes, pyOpen, mayRead, mayWrite]
  | code => simp [openFile, openCode]

example : openFile false (.num 2) (some "abc".toList) =
    some (.ok { before := [], after := "abc".toList, readable := true, writable := true }) :=
  (C113_open_iff (arg := .num 2) (n := 2) rfl (by decide) _).mpr (by decide)

/-- C113: FOPEN(f, 1), which opens a file for writing, empties it. -/
theorem C113_open_write_fails (c : Str) :
    ∃ f, openFile false (.num 1) (some c) = some (.ok f) ∧ f.content = [] :=
  ⟨_, rfl, rfl⟩

example : ∃ f, openFile false (.num 1) (some "abc".toList) = some (.ok f) ∧ f.content = [] :=
  C113_open_write_fails _

/-- C113: FOPEN of a file that does not exist has no value (FoxPro gives -1): it raises, except that
FOPEN(f, 1) makes the file. -/
theorem C113_missing_fails (arg : ModeArg) :
    openFile false arg none = none ∨ (∃ e, openFile false arg none = some (.error e)) ∨
      arg = .num 1 ∧ ∃ f, openFile false arg none = some (.ok f) := by
  cases arg with
  | absent => exact Or.inr (Or.inl ⟨_, rfl⟩)
  | code => exact Or.inl rfl
  | num n =>
    match n with
    | 0 => exact Or.inr (Or.inl ⟨_, rfl⟩)
    | 1 => exact Or.inr (Or.inr ⟨rfl, _, rfl⟩)
    | 2 => exact Or.inr (Or.inl ⟨_, rfl⟩)
    | 3 => exact Or.inl rfl
    | n + 4 => exact Or.inr (Or.inl ⟨.typeError, by simp [openFile, openCode, opentypes]⟩)

example : ∃ e, openFile false .absent none = some (.error e) := ⟨_, rfl⟩

/-- C113: FCREATE never gives a file that can be both written and read, as that of FoxPro can; with the
attribute 1 (a file to be marked read-only) nothing is made at all. -/
theorem C113_create_fails (arg : ModeArg) (c : Option Str) {f : File} (h : openFile true arg c = some (.ok f)) :
    ¬ (f.readable = true ∧ f.writable = true) := by
  have key : ∀ m : Str, m = "w".toList ∨ m = "r".toList → pyOpen m c = .ok f → ¬ (f.readable = true ∧ f.writable = true) := by
    intro m hm ho
    rcases hm with rfl | rfl
    · simp [pyOpen] at ho; subst ho; simp
    · cases c <;> simp [pyOpen] at ho
      subst ho; simp
  cases arg with
  | absent => exact key _ (Or.inl rfl) (by simpa [openFile, openCode, opentypes] using h)
  | code => simp [openFile, openCode] at h
  | num n =>
    match n with
    | 0 => exact key _ (Or.inl rfl) (by simpa [openFile, openCode, opentypes] using h)
    | 1 => exact key _ (Or.inr rfl) (by simpa [openFile, openCode, opentypes] using h)
    | 2 => simp [openFile, openCode, opentypes] at h
    | n + 3 => simp [openFile, openCode, opentypes] at h

example : openFile true .absent (some "abc".toList) =
      some (.ok { before := [], after := [], readable := false, writable := true }) ∧
    openFile true (.num 1) none = some (.error .fileNotFound) := ⟨rfl, rfl⟩

/-- C113: FCREATE with the attribute 1 makes no new file and empties no file that exists; it opens the old one for
reading or fails. -/
theorem C113_attribute_fails (c : Option Str) :
    (c = none → ∃ e, openFile true (.num 1) c = some (.error e)) ∧
    ∀ t, c = some t → ∃ f : File, openFile true (.num 1) c = some (.ok f) ∧ f.before ++ f.after = t ∧ f.writable = false := by
  constructor
  · rintro rfl; exact ⟨_, rfl⟩
  · rintro t rfl; exact ⟨_, rfl, rfl, rfl⟩

example : ∃ f : File, openFile true (.num 1) (some "old".toList) = some (.ok f) ∧ f.before ++ f.after = "old".toList ∧ f.writable = false :=
  (C113_attribute_fails _).2 _ rfl

/-- C113: nothing can be read from a file made with FCREATE, before or behind whatever is written to it. -/
theorem C113_create_read_fails (c : Option Str) {linesep : Str} {f g : File} (h : openFile true .absent c = some (.ok f))
    {lines : List Str} (hg : fputsAll linesep f lines = .ok g) (limit : Option Nat) :
    (∃ e, fgets g limit = .error e) ∧ ∃ e, fread g limit = .error e := by
  have hf : f.readable = false := by
    simp [openFile, openCode, opentypes, pyOpen] at h
    subst h; rfl
  have keep : ∀ (lines : List Str) (f : File), f.readable = false → fputsAll linesep f lines = .ok g → g.readable = false := by
    intro lines
    induction lines with
    | nil => intro f hf h; cases h; exact hf
    | cons s ss ih =>
      intro f hf h
      unfold fputsAll at h
      split at h
      · rename_i r hr
        refine ih r.2 ?_ h
        unfold fputs File.write at hr
        split at hr
        · cases hr; exact hf
        · cases hr
      · cases h
  have hr := keep lines f hf hg
  simp [fgets, fread, File.reading, hr, Except.map]

example : ∃ f g, openFile true .absent none = some (.ok f) ∧ fputsAll ['\n'] f ["ab".toList] = .ok g ∧ g.content = "ab\r\n".toList :=
  ⟨_, _, rfl, rfl, by decide⟩

/-- C113: FSEEK goes to the place that its arguments describe, within the file, and gives its number, exactly if
it counts from the beginning or by 0; otherwise it raises. -/
theorem C113_fseek_iff (f : File) {n : Int} {w : Nat} (hw : w ≤ 2)
    (h0 : 0 ≤ seekBase f.before.length f.content.length w + n)
    (h1 : seekBase f.before.length f.content.length w + n ≤ f.content.length) :
    (∃ f', fseek f n w = .ok (seekBase f.before.length f.content.length w + n, f') ∧
      f'.content = f.content ∧ (f'.before.length : Int) = seekBase f.before.length f.content.length w + n ∧
      f'.readable = f.readable ∧ f'.writable = f.writable) ↔ w = 0 ∨ n = 0 := by
  obtain rfl | rfl | rfl : w = 0 ∨ w = 1 ∨ w = 2 := by omega
  · simp only [seekBase, Int.zero_add] at h0 h1 ⊢
    simp only [fseek, if_true, h0, true_or, iff_true]
    refine ⟨_, rfl, by simp [File.content], ?_, rfl, rfl⟩
    simp only [List.length_take]
    omega
  · simp only [seekBase] at h0 h1 ⊢
    by_cases h : n = 0
    · subst h
      simp only [fseek, if_true, or_true, iff_true, Int.add_zero, show (1 : Nat) ≠ 0 by decide, if_false]
      exact ⟨_, rfl, rfl, rfl, rfl, rfl⟩
    · simp [fseek, h]
  · simp only [seekBase] at h0 h1 ⊢
    by_cases h : n = 0
    · subst h
      simp only [fseek, if_true, or_true, iff_true, Int.add_zero, show (2 : Nat) ≠ 0 by decide,
        show (2 : Nat) ≠ 1 by decide, if_false]
      exact ⟨_, rfl, by simp [File.content], rfl, rfl, rfl⟩
    · simp [fseek, h]

example : fseek { before := "ab".toList, after := "cd".toList, readable := true, writable := true } (-1) 2 =
    .error .unsupported := rfl

/-- C113: FPUTS writes the text, cut to the third argument if there is one, and a line end, and gives the number of characters written; the bytes
written are these exactly if line feeds are stored as they are, as on Unix: on Windows the line end
becomes CR CR LF. -/
theorem C113_fputs_iff {linesep : Str} (hs : linesep = ['\n'] ∨ linesep = crlf) {f : File} (hw : f.writable = true)
    (hend : f.after = []) {s : Str} (h1 : OneLine s) (limit : Option Nat) :
    ∃ f', fputs linesep f s limit = .ok ((upTo limit s).length + 2, f') ∧
      (f'.content = f.content ++ upTo limit s ++ crlf ↔ linesep = ['\n']) := by
  obtain ⟨b, a, r, w⟩ := f
  simp only at hw hend
  subst hw hend
  rw [fputs_eq]
  simp only [File.write, if_true, File.content]
  have h1 : OneLine (upTo limit s) := oneLine_take h1 _
  generalize upTo limit s = t at h1
  refine ⟨_, by rw [List.length_append]; rfl, ?_⟩
  rw [translate_append, translate_oneLine linesep h1]
  rcases hs with rfl | rfl
  · simp [translate, crlf]
  · simp [translate, crlf]

example : (fputs crlf { before := [], after := [], readable := false, writable := true } "ab".toList none).map
    (fun r => r.2.content) = .ok "ab\r\r\n".toList := by rfl

/-- C113: FWRITE writes the text, or as much of it as the third argument says, over what the file has at the
position, and nothing else changes (texts without line feeds, or a system that stores line feeds as they are). -/
theorem C113_fwrite {linesep : Str} {f : File} (hw : f.writable = true) {s : Str}
    (h : linesep = ['\n'] ∨ '\n' ∉ s) (limit : Option Nat) :
    fwrite linesep f s limit = .ok ((upTo limit s).length,
      { f with before := f.before ++ upTo limit s, after := f.after.drop (upTo limit s).length }) := by
  have ht : translate linesep (upTo limit s) = upTo limit s := by
    rcases h with rfl | h
    · exact translate_posix _
    · have h' : '\n' ∉ upTo limit s := fun x => h (List.mem_of_mem_take x)
      generalize upTo limit s = t at h'
      induction t with
      | nil => rfl
      | cons c t ih =>
        simp only [List.mem_cons, not_or] at h'
        have := ih h'.2
        simp only [translate, List.flatMap_cons] at this ⊢
        rw [this]
        simp [Ne.symm h'.1]
  rw [fwrite_eq]
  simp only [File.write, hw, if_true, ht]

example : fwrite crlf { before := "a".toList, after := "bcd".toList, readable := true, writable := true } "XYZ".toList (some 2) =
    .ok (2, { before := "aXY".toList, after := "d".toList, readable := true, writable := true }) :=
  C113_fwrite rfl (Or.inr (by decide)) _

/-- C113: FGETS gives the next line without its line end and goes behind it; with a limit that is not
above the length of the line it gives as many characters as the limit says and goes behind them. -/
theorem C113_fgets_partial {f : File} (hr : f.readable = true) {l rest : Str} (hl : OneLine l)
    (ha : f.after = l ++ crlf ++ rest) :
    (∀ limit : Option Nat, (∀ n, limit = some n → l.length < n) →
      fgets f limit = .ok (l, { f with before := f.before ++ l ++ crlf, after := rest })) ∧
    ∀ n ≤ l.length, fgets f (some n) =
      .ok (l.take n, { f with before := f.before ++ l.take n, after := l.drop n ++ crlf ++ rest }) := by
  constructor
  · intro limit hlim
    have hn : l.length < limit.getD f.after.length := by
      cases limit with
      | none => simp [ha, crlf]
      | some n => exact hlim n rfl
    simp only [fgets, File.reading, hr, if_true, Except.map]
    rw [ha] at hn ⊢
    rw [readLine_line hl rest hn, stripEnds_lf hl]
    simp
  · intro n hn
    simp only [fgets, File.reading, hr, if_true, Except.map, Option.getD_some]
    rw [ha, List.append_assoc, readLine_short hl _ hn, stripEnds_plain (oneLine_take hl n)]
    simp

example : fgets { before := [], after := "ab\r\ncd".toList, readable := true, writable := false } none =
    .ok ("ab".toList, { before := "ab\r\n".toList, after := "cd".toList, readable := true, writable := false }) :=
  (C113_fgets_partial (l := "ab".toList) (rest := "cd".toList) rfl (by simp [OneLine]) rfl).1 none (by simp)

/-- C113: without a limit FGETS of FoxPro reads at most 254 characters of a line; that of the generated
program reads all of them. -/
theorem C113_long_line_fails {f : File} (hr : f.readable = true) {l rest : Str} (hl : OneLine l)
    (ha : f.after = l ++ crlf ++ rest) (h : 254 < l.length) :
    ∃ f', fgets f none = .ok (l, f') ∧ l ≠ l.take 254 :=
  ⟨_, (C113_fgets_partial hr hl ha).1 none (by simp), by
    intro e
    have := congrArg List.length e
    simp at this
    omega⟩

example : ∃ f', fgets { before := [], after := List.replicate 300 'a' ++ crlf ++ [], readable := true, writable := false } none =
    .ok (List.replicate 300 'a', f') ∧ List.replicate 300 'a' ≠ (List.replicate 300 'a').take 254 :=
  C113_long_line_fails rfl (by intro c hc; rw [List.eq_of_mem_replicate hc]; decide) rfl (by decide +kernel)

/-- C113: FREAD(h, n) gives the next `n` bytes of the file, or what is left of it, exactly if there is no
carriage return among them. -/
theorem C113_fread_iff {f : File} (hr : f.readable = true) (n : Nat) :
    (∃ f', fread f (some n) = .ok (f.after.take n, f')) ↔ '\r' ∉ f.after.take n := by
  constructor
  · rintro ⟨f', h⟩
    simp only [fread, File.reading, hr, if_true, Option.getD_some, Except.ok.injEq, Prod.mk.injEq] at h
    rw [← h.1]
    exact readChars_no_cr n _
  · intro h
    simp only [fread, File.reading, hr, if_true, Option.getD_some]
    rw [readChars_take n _ h]
    exact ⟨_, rfl⟩

example : fread { before := [], after := "a\r\nb".toList, readable := true, writable := false } (some 3) =
    .ok ("a\nb".toList, { before := "a\r\nb".toList, after := [], readable := true, writable := false }) := by rfl

namespace LowFilesAux

theorem fputsAll_content {f : File} (hw : f.writable = true) (ha : f.after = []) (ls : List Str) :
    fputsAll ['\n'] f ls = .ok { f with before := f.before ++ ls.flatMap (· ++ crlf) } := by
  induction ls generalizing f with
  | nil => simp [fputsAll]
  | cons l ls ih =>
    simp only [fputsAll, fputs, File.write, hw, if_true, translate_posix]
    rw [ih rfl (by simp [ha])]
    obtain ⟨b, a, r, w⟩ := f
    simp only at ha
    subst ha
    simp [crlf]

theorem fgetsAll_lines (ls : List Str) (h : ∀ l ∈ ls, OneLine l) (rest : Str) {f : File} (hr : f.readable = true)
    (ha : f.after = ls.flatMap (· ++ crlf) ++ rest) : ∃ f', fgetsAll f ls.length = .ok (ls, f') := by
  induction ls generalizing f with
  | nil => exact ⟨f, rfl⟩
  | cons l ls ih =>
    have e := (C113_fgets_partial (rest := ls.flatMap (· ++ crlf) ++ rest) hr (h l (by simp)) (by rw [ha]; simp)).1 none (by simp)
    obtain ⟨f', hf⟩ := ih (fun x hx => h x (by simp [hx]))
      (f := { f with before := f.before ++ l ++ crlf, after := ls.flatMap (· ++ crlf) ++ rest }) hr rfl
    exact ⟨f', by simp only [List.length_cons, fgetsAll, e, hf]⟩

theorem translate_win {l : Str} (h : OneLine l) : translate crlf (l ++ "\r\n".toList) = l ++ '\r' :: crlf := by
  rw [translate_append, translate_oneLine _ h]; rfl

theorem fputsAll_windows {f : File} (hw : f.writable = true) (ha : f.after = []) (ls : List Str) (h : ∀ l ∈ ls, OneLine l) :
    fputsAll crlf f ls = .ok { f with before := f.before ++ ls.flatMap (· ++ '\r' :: crlf) } := by
  induction ls generalizing f with
  | nil => simp [fputsAll]
  | cons l ls ih =>
    simp only [fputsAll, fputs, File.write, hw, if_true]
    rw [ih rfl (by simp [ha]) (fun x hx => h x (by simp [hx])), translate_win (h l (by simp))]
    obtain ⟨b, a, r, w⟩ := f
    simp only at ha
    subst ha
    simp

end LowFilesAux

/-- C113: lines written with FPUTS to a new file are read again with FGETS, where line feeds are stored
as they are. -/
theorem C113_round_trip_partial {lines : List Str} (h : ∀ l ∈ lines, OneLine l) (old : Option Str) :
    ∃ f g r f', openFile true .absent old = some (.ok f) ∧ fputsAll ['\n'] f lines = .ok g ∧
      openFile false .absent (some g.content) = some (.ok r) ∧ fgetsAll r lines.length = .ok (lines, f') := by
  have e := fputsAll_content (f := { before := [], after := [], readable := false, writable := true }) rfl rfl lines
  obtain ⟨f', hf⟩ := fgetsAll_lines lines h []
    (f := { before := [], after := lines.flatMap (· ++ crlf), readable := true, writable := false }) rfl (by simp)
  exact ⟨_, _, _, f', rfl, e, by simp [File.content]; rfl, hf⟩

example : ∃ f g r f', openFile true .absent none = some (.ok f) ∧ fputsAll ['\n'] f ["ab".toList, [], "c".toList] = .ok g ∧
    openFile false .absent (some g.content) = some (.ok r) ∧ fgetsAll r 3 = .ok (["ab".toList, [], "c".toList], f') :=
  C113_round_trip_partial (by simp [OneLine]) none

/-- C113: on Windows an empty line appears behind every line written with FPUTS: the second line read
is empty, whatever was written. -/
theorem C113_windows_fails {a b : Str} {lines : List Str} (ha : OneLine a) (hb : OneLine b)
    (h : ∀ l ∈ lines, OneLine l) (old : Option Str) :
    ∃ f g r f' , openFile true .absent old = some (.ok f) ∧ fputsAll crlf f (a :: b :: lines) = .ok g ∧
      openFile false .absent (some g.content) = some (.ok r) ∧ fgetsAll r 2 = .ok ([a, []], f') := by
  have hall : ∀ l ∈ a :: b :: lines, OneLine l := by
    intro l hl
    rcases List.mem_cons.mp hl with rfl | hl
    · exact ha
    · rcases List.mem_cons.mp hl with rfl | hl
      · exact hb
      · exact h l hl
  have e := fputsAll_windows (f := { before := [], after := [], readable := false, writable := true }) rfl rfl _ hall
  refine ⟨_, _, _, ?_, rfl, e, by simp only [File.content]; rfl, ?_⟩
  · exact { before := a ++ ['\r'] ++ crlf, after := (b :: lines).flatMap (· ++ '\r' :: crlf), readable := true, writable := false }
  · have cr : ∀ {n : Nat} {l : Str} (rest : Str), OneLine l → l.length < n →
        readLine n (l ++ '\r' :: '\r' :: rest) = (l ++ ['\n'], l ++ ['\r'], '\r' :: rest) := by
      intro n l rest hl
      induction l generalizing n with
      | nil =>
        intro hn
        obtain ⟨k, rfl⟩ : ∃ k, n = k + 1 := ⟨n - 1, by simp at hn; omega⟩
        rfl
      | cons c l ih =>
        intro hn
        obtain ⟨k, rfl⟩ : ∃ k, n = k + 1 := ⟨n - 1, by simp at hn; omega⟩
        have hc := hl c (by simp)
        have := ih (n := k) (fun d hd => hl d (by simp [hd])) (by simp at hn; omega)
        simp [readLine, nextChar_plain hc.1, hc.2, this]
    simp only [fgetsAll, fgets, File.reading, if_true, Except.map, Option.getD_none]
    rw [show ([] : Str) ++ (a :: b :: lines).flatMap (· ++ '\r' :: crlf) ++ ([] : Str) =
      a ++ '\r' :: '\r' :: '\n' :: (b :: lines).flatMap (· ++ '\r' :: crlf) by simp [crlf]]
    rw [cr _ ha (by simp), stripEnds_lf ha]
    simp only []
    rw [show ('\r' :: '\n' :: (b :: lines).flatMap (· ++ '\r' :: crlf) : Str) =
      [] ++ crlf ++ (b :: lines).flatMap (· ++ '\r' :: crlf) from rfl]
    rw [readLine_line (l := []) (by simp [OneLine]) _ (by simp [crlf])]
    simp [stripEnds, isEnd, crlf]

example : ∃ f g r f' , openFile true .absent none = some (.ok f) ∧ fputsAll crlf f ["x".toList, "y".toList] = .ok g ∧
    openFile false .absent (some g.content) = some (.ok r) ∧ fgetsAll r 2 = .ok (["x".toList, []], f') :=
  C113_windows_fails (by simp [OneLine]) (by simp [OneLine]) (by simp) none

end Props
