import Verif.Model.FxpListing
import Verif.Props.FxpCode
/-!
# C128: the programs of a container and their listings
-/
namespace Props
open Model.Fxp Spec.FxpLines

namespace ListingSpec

/-- The code of a routine: its lines, as stored and as text, and its names. -/
structure Block where
  lines : List (List Nat × List Char)
  names : List (List Nat)

def Block.bytes (b : Block) : List Nat := block (b.lines.map Prod.fst) b.names
def Block.text (b : Block) : List Char := b.lines.flatMap Prod.snd

/-- A line is decoded to a text, whatever follows it. -/
def Decodes (fmt : Nat → List Nat → Option String) (names : List String) (l : List Nat × List Char) : Prop :=
  ∀ after, ∃ s, parseLine fmt names (l.1 ++ after) l.1.length = .ok (s, after) ∧ s.toList = l.2

structure Block.Ok (fmt : Nat → List Nat → Option String) (b : Block) : Prop where
  lines : ∀ l ∈ b.lines, l.1.length + 2 < 65536 ∧ Decodes fmt (b.names.map latin1) l
  names : ∀ n ∈ b.names, n.length < 65536
  count : b.names.length < 65536

/-- A procedure or method: where its code is, and whether it belongs to a class. -/
structure Routine where
  name : List Nat
  pos : Nat
  inClass : Bool
  cls : Nat
  code : Block

structure ClassDef where
  name : List Nat
  parent : List Nat
  pos : Nat
  code : Block

structure Program where
  mainPos : Nat
  main : Block
  procs : List Routine
  classes : List ClassDef

def text (b : List Nat) : List Char := b.map Char.ofNat

def string (b : List Nat) : List Nat := le2 b.length ++ b

def Routine.header (p : Routine) : List Nat := string p.name ++ le4 p.pos ++ le2 (if p.inClass then 1 else 0) ++ le2 p.cls
def ClassDef.header (c : ClassDef) : List Nat := string c.name ++ string c.parent ++ le4 c.pos ++ [0, 0]

/-- The bytes at a position of a file. -/
def Holds (file : List Nat) (pos : Nat) (bytes : List Nat) : Prop := ∃ rest, file.drop pos = bytes ++ rest

/-- The places of the tables of a program, relative to its beginning. -/
structure Places where
  procs : Nat
  classes : Nat
  source : Nat
  numLines : Nat
  lines : Nat
  date : Nat
  name : Nat
  codepage : Nat

def header (P : Program) (t : Places) : List Nat :=
  le2 P.procs.length ++ le2 P.classes.length ++ le4 P.mainPos ++ le4 t.procs ++ le4 t.classes ++ le4 t.source ++ le4 t.numLines ++
    le4 t.lines ++ le4 t.date ++ le4 t.name ++ [t.codepage]

/-- The lengths of the months. -/
def months (year : Nat) : List Nat :=
  [31, if year % 400 = 0 ∨ (year % 4 = 0 ∧ year % 100 ≠ 0) then 29 else 28, 31, 30, 31, 30, 31, 31, 30, 31, 30, 31]

/-- The calendar has the date, and the day has the time. -/
def InCalendar (d : DateFields) : Prop :=
  (∃ m n, d.month = m + 1 ∧ (months d.year)[m]? = some n ∧ 1 ≤ d.day ∧ d.day ≤ n) ∧ d.hour ≤ 23 ∧ d.minute ≤ 59 ∧ d.second ≤ 59

/-- A program stored in a file at `start`. -/
structure Stored (fmt : Nat → List Nat → Option String) (codepages : Nat → Bool) (file : List Nat) (start namePos : Nat) (P : Program) (t : Places) :
    Prop where
  header : Holds file start (header P t)
  small : P.procs.length < 32768 ∧ P.classes.length < 32768 ∧
    ∀ n ∈ [P.mainPos, t.procs, t.classes, t.source, t.numLines, t.lines], n < 2147483648
  date : InCalendar (convertDate t.date)
  codepage : codepages (255 - t.codepage) = true
  name : ∃ s, readUntilNull file (namePos + t.name) = .ok s
  procs : Holds file (t.procs + start) (P.procs.flatMap Routine.header)
  classes : Holds file (t.classes + start) (P.classes.flatMap ClassDef.header)
  source : 16 * (P.procs.length + P.classes.length + 1) ≤ (file.drop (t.source + start)).length
  main : Holds file (P.mainPos + start) P.main.bytes ∧ P.main.Ok fmt
  procCode : ∀ p ∈ P.procs, Holds file (p.pos + start) p.code.bytes ∧ p.code.Ok fmt ∧ p.name.length < 65536 ∧ p.cls < 32768
  classCode : ∀ c ∈ P.classes, Holds file (c.pos + start) c.code.bytes ∧ c.code.Ok fmt ∧ c.name.length < 65536 ∧ c.parent.length < 65536

/-- All routines, the main program first, as the reader shall report them. -/
def Program.routines (P : Program) : List Proc :=
  ⟨[], 0, P.main.text⟩ :: P.procs.map fun p => ⟨text p.name, if p.inClass then 1 else 0, p.code.text⟩

def Program.classDefs (P : Program) : List Class := P.classes.map fun c => ⟨text c.name, text c.parent, c.code.text⟩

end ListingSpec
open ListingSpec

namespace ListingAux

theorem month_length (y m n : Nat) : (months y)[m]? = some n ↔ m < 12 ∧ n = daysInMonth y (m + 1) := by
  match m with
  | 0 | 1 | 2 | 3 | 4 | 5 | 6 | 7 | 8 | 9 | 10 | 11 =>
    simp [months, daysInMonth, eq_comm]
    try (split <;> split <;> omega)
  | k + 12 =>
    simp [months]
    omega

theorem valid_iff (d : DateFields) : validDate d = true ↔ InCalendar d := by
  simp only [validDate, InCalendar, month_length, Bool.and_eq_true, decide_eq_true_eq]
  constructor
  · rintro ⟨⟨⟨⟨⟨⟨h1, h2⟩, h3⟩, h4⟩, h5⟩, h6⟩, h7⟩
    refine ⟨⟨d.month - 1, _, by omega, ⟨by omega, rfl⟩, h3, ?_⟩, by omega, by omega, by omega⟩
    rw [show d.month - 1 + 1 = d.month by omega]
    exact h4
  · rintro ⟨⟨m, n, h1, ⟨h2, h3⟩, h4, h5⟩, h6, h7, h8⟩
    subst h3
    rw [← h1] at h5
    refine ⟨⟨⟨⟨⟨⟨?_, ?_⟩, h4⟩, h5⟩, ?_⟩, ?_⟩, ?_⟩ <;> omega

variable {fmt : Nat → List Nat → Option String} {codepages : Nat → Bool}

theorem readSInt_two (n : Nat) (h : n < 32768) (r : Rest) : readSInt 2 (le2 n ++ r) = .ok ((n : Int), r) := by
  have hu := readUInt_two n (by omega) r
  unfold readUInt at hu
  split at hu
  · cases hu
  · rename_i hl
    simp only [Except.ok.injEq, Prod.mk.injEq] at hu
    simp only [readSInt, hl, if_false, hu.1, hu.2]
    rw [if_pos (by omega)]

theorem readSInt_four (n : Nat) (h : n < 2147483648) (r : Rest) : readSInt 4 (le4 n ++ r) = .ok ((n : Int), r) := by
  have hu := readUInt_four n r
  unfold readUInt at hu
  split at hu
  · cases hu
  · rename_i hl
    simp only [Except.ok.injEq, Prod.mk.injEq] at hu
    simp only [readSInt, hl, if_false, hu.1, hu.2]
    rw [if_pos (by omega)]

theorem readUInt_one (n : Nat) (r : Rest) : readUInt 1 ([n] ++ r) = .ok (n, r) := by
  simp [readUInt, leDecode]

theorem readString_string (b : List Nat) (h : b.length < 65536) (r : Rest) : readString (string b ++ r) = .ok (latin1 b, r) := by
  unfold readString string
  rw [List.append_assoc, readUInt_two _ h]
  simp

theorem latin1_text (b : List Nat) : (latin1 b).toList = text b := by simp [latin1, text]

theorem header_read {P : Program} {t : Places} (h1 : P.procs.length < 32768) (h2 : P.classes.length < 32768)
    (h : ∀ n ∈ [P.mainPos, t.procs, t.classes, t.source, t.numLines, t.lines], n < 2147483648) (r : Rest) :
    readBlockHeader (header P t ++ r) = .ok ⟨P.procs.length, P.classes.length, P.mainPos, t.procs, t.classes, t.source, t.numLines, t.lines,
      t.date, t.name, t.codepage⟩ := by
  have a : ∀ n ∈ [P.mainPos, t.procs, t.classes, t.source, t.numLines, t.lines], ∀ r, readSInt 4 (le4 n ++ r) = .ok ((n : Int), r) :=
    fun n hn r => readSInt_four n (h n hn) r
  simp only [readBlockHeader, header, List.append_assoc, bind, Except.bind, readSInt_two _ h1, readSInt_two _ h2,
    a P.mainPos (by simp), a t.procs (by simp), a t.classes (by simp), a t.source (by simp), a t.numLines (by simp), a t.lines (by simp),
    readUInt_four, readUInt_one, pure, Except.pure]

theorem proc_read (p : Routine) (h : p.name.length < 65536) (hc : p.cls < 32768) (r : Rest) :
    readProcHeader (p.header ++ r) = .ok (⟨latin1 p.name, p.pos, if p.inClass then 1 else 0, p.cls⟩, r) := by
  have hf : readSInt 2 (le2 (if p.inClass then 1 else 0) ++ (le2 p.cls ++ r)) = .ok (((if p.inClass then 1 else 0 : Nat) : Int), le2 p.cls ++ r) :=
    readSInt_two _ (by split <;> omega) _
  simp only [readProcHeader, Routine.header, List.append_assoc, bind, Except.bind, readString_string _ h, readUInt_four, hf, readSInt_two _ hc, pure, Except.pure]
  split <;> rfl

theorem class_read (c : ClassDef) (h : c.name.length < 65536) (hp : c.parent.length < 65536) (r : Rest) :
    readClassHeader (c.header ++ r) = .ok (⟨latin1 c.name, latin1 c.parent, c.pos⟩, r) := by
  simp only [readClassHeader, ClassDef.header, List.append_assoc, bind, Except.bind, readString_string _ h, readString_string _ hp, readUInt_four, pure, Except.pure]
  rfl

theorem many {α β : Type} (read : Rest → Except DErr (β × Rest)) (enc : α → List Nat) (f : α → β) : ∀ (l : List α)
    (_ : ∀ x ∈ l, ∀ r, read (enc x ++ r) = .ok (f x, r)) (r : Rest), readMany read l.length (l.flatMap enc ++ r) = .ok (l.map f)
  | [], _, _ => rfl
  | x :: l, h, r => by
    simp only [List.length_cons, List.flatMap_cons, List.append_assoc, readMany, h x List.mem_cons_self,
      many read enc f l (fun y hy => h y (List.mem_cons_of_mem _ hy)), List.map_cons]

theorem source_many : ∀ (n : Nat) (r : Rest), 16 * n ≤ r.length → ∃ xs, readMany readSourceInfo n r = .ok xs
  | 0, _, _ => ⟨[], rfl⟩
  | n + 1, r, h => by
    obtain ⟨xs, hx⟩ := source_many n (r.drop 16) (by simp; omega)
    refine ⟨leDecode ((r.drop 12).take 4) :: xs, ?_⟩
    simp only [readMany, readSourceInfo, if_neg (show ¬ r.length < 16 by omega), hx]

theorem entries_text (names : List String) : ∀ (lines : List (List Nat × List Char)) (after : Rest), (∀ l ∈ lines, Decodes fmt names l) →
    (entries (parseLine fmt names) (lines.map Prod.fst) after).flatMap String.toList = lines.flatMap Prod.snd
  | [], _, _ => rfl
  | l :: lines, after, h => by
    simp only [List.map_cons, entries, List.flatMap_cons, entries_text names lines after fun x hx => h x (List.mem_cons_of_mem _ hx)]
    congr 1
    obtain ⟨s, h1, h2⟩ := h l List.mem_cons_self (area (lines.map Prod.fst) ++ after)
    simp only [entryOf, h1, h2]

theorem seek_nat (file : List Nat) (n start : Nat) : seek file ((n : Int) + start) = .ok (file.drop (n + start)) := by
  have : ¬ ((n : Int) + start < 0) := by omega
  simp only [seek, this, if_false]
  congr 2

theorem code_read {file : List Nat} {pos start : Nat} {b : Block} (h : Holds file (pos + start) b.bytes) (ho : b.Ok fmt) :
    readCode fmt file ((pos : Int) + start) = .ok b.text := by
  obtain ⟨rest, hr⟩ := h
  unfold readCode
  rw [seek_nat, hr]
  simp only
  have hb := (C33_block fmt (b.lines.map Prod.fst) b.names rest
    (by intro p hp; obtain ⟨l, hl, rfl⟩ := List.mem_map.mp hp; exact (ho.lines l hl).1) ho.names ho.count).1
  rw [Block.bytes, hb]
  simp only [lift]
  rw [entries_text _ _ _ fun l hl => (ho.lines l hl).2]
  rfl

theorem procs_read {file : List Nat} {start : Nat} : ∀ (l : List Routine)
    (_ : ∀ p ∈ l, Holds file (p.pos + start) p.code.bytes ∧ p.code.Ok fmt),
    readProcs fmt file start (l.map fun p => ⟨latin1 p.name, p.pos, if p.inClass then 1 else 0, p.cls⟩) =
      .ok (l.map fun p => ⟨text p.name, if p.inClass then 1 else 0, p.code.text⟩)
  | [], _ => rfl
  | p :: l, h => by
    obtain ⟨h1, h2⟩ := h p List.mem_cons_self
    simp only [List.map_cons, readProcs, code_read h1 h2, procs_read l fun q hq => h q (List.mem_cons_of_mem _ hq), latin1_text]

theorem classes_read {file : List Nat} {start : Nat} : ∀ (l : List ClassDef)
    (_ : ∀ c ∈ l, Holds file (c.pos + start) c.code.bytes ∧ c.code.Ok fmt),
    readClasses fmt file start (l.map fun c => ⟨latin1 c.name, latin1 c.parent, c.pos⟩) =
      .ok (l.map fun c => ⟨text c.name, text c.parent, c.code.text⟩)
  | [], _ => rfl
  | c :: l, h => by
    obtain ⟨h1, h2⟩ := h c List.mem_cons_self
    simp only [List.map_cons, readClasses, code_read h1 h2, classes_read l fun q hq => h q (List.mem_cons_of_mem _ hq), latin1_text]

end ListingAux
open ListingAux

/-- C128: a program stored in a file, wherever its tables and code are, is read with all its procedures and classes, in order and with
their code. -/
theorem C128_block (fmt : Nat → List Nat → Option String) (codepages : Nat → Bool) (file : List Nat) (start namePos : Nat) (P : Program)
    (t : Places) (h : Stored fmt codepages file start namePos P t) :
    readFileBlock fmt codepages file start namePos = .ok (P.routines, P.classDefs) := by
  obtain ⟨r0, hr0⟩ := h.header
  obtain ⟨s, hs⟩ := h.name
  obtain ⟨r1, hr1⟩ := h.procs
  obtain ⟨r2, hr2⟩ := h.classes
  obtain ⟨xs, hxs⟩ := source_many (P.procs.length + P.classes.length + 1) _ h.source
  have hp := many readProcHeader Routine.header (fun p => (⟨latin1 p.name, p.pos, if p.inClass then 1 else 0, p.cls⟩ : ProcHeader)) P.procs
    (fun p hp r => proc_read p (h.procCode p hp).2.2.1 (h.procCode p hp).2.2.2 r) r1
  have hc := many readClassHeader ClassDef.header (fun c => (⟨latin1 c.name, latin1 c.parent, c.pos⟩ : ClassHeader)) P.classes
    (fun c hc r => class_read c (h.classCode c hc).2.2.1 (h.classCode c hc).2.2.2 r) r2
  have hn : ((P.procs.length : Int) + P.classes.length + 1).toNat = P.procs.length + P.classes.length + 1 := by omega
  have hp' := procs_read (fmt := fmt) (file := file) (start := start) P.procs fun p hp => ⟨(h.procCode p hp).1, (h.procCode p hp).2.1⟩
  have hc' := classes_read (fmt := fmt) (file := file) (start := start) P.classes fun c hc => ⟨(h.classCode c hc).1, (h.classCode c hc).2.1⟩
  have hm := code_read h.main.1 h.main.2
  simp only [readFileBlock, hr0, header_read h.small.1 h.small.2.1 h.small.2.2, lift, bind, Except.bind, pure, Except.pure, (valid_iff _).mpr h.date, h.codepage,
    hs, seek_nat, hr1, hr2, Int.toNat_natCast, hp, hc, hn, hxs, readProcs, hm, hp', hc', Program.routines, Program.classDefs,
    Bool.true_eq_false, if_false]
  rfl

namespace ListingDemo
/-- `? 5`, as stored and as text. -/
def print5 : List Nat × List Char := ([0x02, 0xFC, 0xF8, 1, 5, 0xFD, 0xFE], "? 5 \n".toList)
/-- A program with one line and one procedure of one line at position 10 of a file. -/
def prog : Program :=
  { mainPos := 37, main := ⟨[print5], []⟩
    procs := [⟨[72, 73], 50, false, 0, ⟨[print5], []⟩⟩], classes := [] }
def places : Places := { procs := 63, classes := 75, source := 75, numLines := 0, lines := 75, date := 1560612864, name := 0, codepage := 252 }
def file : List Nat :=
  List.replicate 10 9 ++ header prog places ++ prog.main.bytes ++ prog.main.bytes ++ Routine.header ⟨[72, 73], 50, false, 0, ⟨[print5], []⟩⟩ ++
    List.replicate 32 0
end ListingDemo

open ListingDemo in
example : readFileBlock (fun _ _ => none) (fun k => k == 3) file 10 100 = .ok (prog.routines, prog.classDefs) := by decide +kernel

/-- C128: a program with a date that the calendar does not have is left out of the listings without a message. -/
theorem C128_date_fails (fmt : Nat → List Nat → Option String) (codepages : Nat → Bool) (file : List Nat) (start namePos : Nat) (h : BlockHeader)
    (hr : readBlockHeader (file.drop start) = .ok h) (hd : ¬ InCalendar (convertDate h.date)) :
    ∃ e, readFileBlock fmt codepages file start namePos = .error e := by
  refine ⟨.valueError, ?_⟩
  have hd' : validDate (convertDate h.date) = false := by
    cases hv : validDate (convertDate h.date) with
    | false => rfl
    | true => exact absurd ((valid_iff _).mp hv) hd
  simp only [readFileBlock, hr, lift, bind, Except.bind, hd', if_true]
  rfl

open ListingDemo in
example : readFileBlock (fun _ _ => none) (fun k => k == 3) (List.replicate 10 9 ++ header prog { places with date := 0 }) 10 100 =
    .error .valueError := by decide +kernel

/-! ## Listings -/

namespace ListingSpec

inductive Qualifier where
  | isHidden
  | isProtected
  | isPublic

def Qualifier.text : Qualifier → List Char
  | .isHidden => "hidden ".toList
  | .isProtected => "protected ".toList
  | .isPublic => []

/-- What stands in a class: methods, which refer to procedures, and other lines. -/
inductive Member where
  | method (q : Qualifier) (k : Nat)
  | line (text : List Char)

/-- The line of a member in the decoded code. -/
def Member.text : Member → List Char
  | .method q k => "add ".toList ++ q.text ++ "method ".toList ++ Nat.toDigits 10 k ++ [' ', '\n']
  | .line t => t ++ ['\n']

/-- Lines of properties and the like: they do not begin with `add ` and have no character that ends a line. -/
def Member.Plain : Member → Prop
  | .method _ _ => True
  | .line t => (∀ c ∈ t, c.toNat ∉ [10, 11, 12, 13, 28, 29, 30, 133]) ∧ ¬ "add ".toList <+: t

structure Cls where
  name : List Char
  parent : List Char
  members : List Member

def Cls.stored (c : Cls) : Class := ⟨c.name, c.parent, c.members.flatMap Member.text⟩

def procedureWord : List Char := "PROCEDURE ".toList
def defineWord : List Char := "DEFINE CLASS ".toList
def asWord : List Char := " AS ".toList
def enddefineLine : List Char := "ENDDEFINE\n".toList

/-- The source of a member. -/
def Member.source (procs : List Proc) : Member → List Char
  | .method q k =>
    match procs[k]? with
    | some p => q.text ++ procedureWord ++ p.name ++ ['\n'] ++ p.code
    | none => []
  | .line t => t ++ ['\n']

/-- The source of a class, up to the line ENDDEFINE. -/
def Cls.upToEnd (procs : List Proc) (c : Cls) : List Char :=
  defineWord ++ c.name ++ asWord ++ c.parent ++ ['\n'] ++ c.members.flatMap (Member.source procs)

def Cls.source (procs : List Proc) (c : Cls) : List Char := c.upToEnd procs ++ enddefineLine

/-- The source of a routine that belongs to no class. -/
def routineSource (p : Proc) : List Char :=
  if p.flag ≠ 0 then [] else if p.name = [] then p.code else procedureWord ++ p.name ++ ['\n'] ++ p.code

/-- The source of a program. -/
def source (procs : List Proc) (classes : List Cls) : List Char :=
  procs.flatMap routineSource ++ classes.flatMap (Cls.source procs)

end ListingSpec

namespace ListingAux

theorem word1 : kwProcedure = procedureWord := rfl
theorem word2 : kwDefine = defineWord := rfl
theorem word3 : kwAs = asWord := rfl

theorem procsText_eq : ∀ (l : List Proc), procsText l = l.flatMap routineSource
  | [] => rfl
  | p :: l => by
    simp only [procsText, List.flatMap_cons, procsText_eq l, routineSource, procText]
    congr 1
    by_cases h : p.flag = 0 <;> by_cases h' : p.name = [] <;> simp [h, h', word1]

theorem split_line {t : List Char} (h : ∀ c ∈ t, isBreak c = false) (s : List Char) : splitKeep (t ++ '\n' :: s) = (t ++ ['\n']) :: splitKeep s := by
  induction t with
  | nil =>
    have : isBreak '\n' = true := by decide
    simp [splitKeep, this]
  | cons c t ih =>
    have hc := h c List.mem_cons_self
    have hr : c ≠ '\r' := by intro hc'; rw [hc'] at hc; exact absurd hc (by decide)
    simp only [List.cons_append, splitKeep, ih fun x hx => h x (List.mem_cons_of_mem _ hx), hc]
    simp [hr]

theorem digit_break (c : Char) (h : c.isDigit = true) : isBreak c = false := by
  simp only [Char.isDigit, Bool.and_eq_true, decide_eq_true_eq] at h
  have h1 : 48 ≤ c.toNat := h.1
  have h2 : c.toNat ≤ 57 := h.2
  simp only [isBreak, List.contains_iff_mem, Bool.eq_false_iff, ne_eq]
  intro hm
  simp at hm
  omega

theorem digits_are (k : Nat) : ∀ c ∈ Nat.toDigits 10 k, c.isDigit = true := fun _ hc => Nat.isDigit_of_mem_toDigits (by decide) (by decide) hc

theorem method_breaks (q : Qualifier) (k : Nat) : ∀ c ∈ "add ".toList ++ q.text ++ "method ".toList ++ Nat.toDigits 10 k ++ [' '], isBreak c = false := by
  intro c hc
  simp only [List.mem_append] at hc
  have lit : ∀ (l : List Char), l.all (fun c => !isBreak c) = true → c ∈ l → isBreak c = false := by
    intro l hl hm
    simpa using List.all_eq_true.mp hl c hm
  rcases hc with (((hc | hc) | hc) | hc) | hc
  · exact lit _ (by decide) hc
  · cases q <;> exact lit _ (by decide) hc
  · exact lit _ (by decide) hc
  · exact digit_break c (digits_are k c hc)
  · exact lit _ (by decide) hc

theorem member_split (m : Member) (hm : m.Plain) (s : List Char) : splitKeep (m.text ++ s) = m.text :: splitKeep s := by
  cases m with
  | method q k =>
    have := split_line (method_breaks q k) s
    simp only [Member.text]
    simpa [List.append_assoc] using this
  | line t =>
    have := split_line (fun c hc => by
      have := hm.1 c hc
      simp only [isBreak, List.contains_eq_mem, decide_eq_false_iff_not]; exact this) s
    simpa [Member.text, List.append_assoc] using this

theorem members_split : ∀ (l : List Member), (∀ m ∈ l, m.Plain) → splitKeep (l.flatMap Member.text) = l.map Member.text
  | [], _ => rfl
  | m :: l, h => by
    rw [List.flatMap_cons, member_split m (h m List.mem_cons_self), members_split l fun x hx => h x (List.mem_cons_of_mem _ hx)]
    rfl

theorem behind_append (p s : List Char) : behind p (p ++ s) = some s := by
  induction p with
  | nil => cases s <;> rfl
  | cons c p ih => simp [behind, ih]

theorem behind_some : ∀ (p s t : List Char), behind p s = some t → s = p ++ t
  | [], s, t, h => by cases s <;> simpa [behind] using h
  | c :: p, [], t, h => by simp [behind] at h
  | c :: p, d :: s, t, h => by
    simp only [behind] at h
    split at h
    · rename_i hcd
      rw [hcd, behind_some p s t h]; rfl
    · cases h

theorem take_digits (k : Nat) : (Nat.toDigits 10 k ++ [' ', '\n']).takeWhile Char.isDigit = Nat.toDigits 10 k := by
  rw [List.takeWhile_append_of_pos (digits_are k)]
  simp [List.takeWhile_cons]

theorem method_match (q : Qualifier) (k : Nat) : methodLine (Member.text (.method q k)) = some (q.text, Nat.toDigits 10 k) := by
  have ha : behind "add ".toList (Member.text (.method q k)) = some (q.text ++ ("method ".toList ++ (Nat.toDigits 10 k ++ [' ', '\n']))) := by
    simp only [Member.text, List.append_assoc]
    exact behind_append _ _
  have hm := behind_append "method ".toList (Nat.toDigits 10 k ++ [' ', '\n'])
  have ht := take_digits k
  simp only [methodLine, ha]
  generalize Nat.toDigits 10 k ++ [' ', '\n'] = d at hm ht ⊢
  cases q with
  | isHidden =>
    have h1 : behind "hidden ".toList (Qualifier.text .isHidden ++ ("method ".toList ++ d)) = some ("method ".toList ++ d) := behind_append _ _
    rw [h1]; simp only [hm]; rw [ht]; rfl
  | isProtected =>
    have h0 : behind "hidden ".toList (Qualifier.text .isProtected ++ ("method ".toList ++ d)) = none := rfl
    have h1 : behind "protected ".toList (Qualifier.text .isProtected ++ ("method ".toList ++ d)) = some ("method ".toList ++ d) := behind_append _ _
    rw [h0, h1]; simp only [hm]; rw [ht]; rfl
  | isPublic =>
    have h0 : behind "hidden ".toList (Qualifier.text .isPublic ++ ("method ".toList ++ d)) = none := rfl
    have h0' : behind "protected ".toList (Qualifier.text .isPublic ++ ("method ".toList ++ d)) = none := rfl
    have h1 : behind "".toList (Qualifier.text .isPublic ++ ("method ".toList ++ d)) = some ("method ".toList ++ d) := behind_append _ _
    rw [h0, h0', h1]; simp only [hm]; rw [ht]; rfl

theorem line_match {t : List Char} (h : ¬ "add ".toList <+: t) : methodLine (t ++ ['\n']) = none := by
  have : behind "add ".toList (t ++ ['\n']) = none := by
    cases hb : behind "add ".toList (t ++ ['\n']) with
    | none => rfl
    | some s =>
      exfalso
      have := behind_some _ _ _ hb
      apply h
      have e : ("add ".toList ++ s).dropLast = t := by rw [← this]; simp
      cases hs : s with
      | nil =>
        have hlast : ("add ".toList ++ s).getLast? = some '\n' := by rw [← this]; simp
        rw [hs] at hlast
        exact absurd hlast (by decide)
      | cons c s' =>
        rw [hs] at e
        refine ⟨(c :: s').dropLast, ?_⟩
        rw [← e, List.dropLast_append_of_ne_nil (by simp)]
  simp only [methodLine, this]

theorem number (k : Nat) : toNumber (Nat.toDigits 10 k) = k := by
  have := Nat.ofDigitChars_ten_toDigits (n := k)
  exact this

/-- The members that can be written. -/
def Good (procs : List Proc) : Member → Prop
  | .method _ k => k < procs.length
  | .line _ => False

theorem lines_raise (procs : List Proc) : ∀ (l : List Member), (∀ m ∈ l, m.Plain) →
    ((classLines procs (l.map Member.text)).2 = false ↔ ∀ m ∈ l, Good procs m) ∧
    ((classLines procs (l.map Member.text)).2 = false → (classLines procs (l.map Member.text)).1 = l.flatMap (Member.source procs))
  | [], _ => by simp [classLines]
  | m :: l, h => by
    have ih := lines_raise procs l fun x hx => h x (List.mem_cons_of_mem _ hx)
    cases m with
    | line t =>
      have hl : methodLine (Member.text (.line t)) = none := line_match (h _ List.mem_cons_self).2
      simp [classLines, hl, Good]
    | method q k =>
      simp only [List.map_cons, classLines, method_match, Nat.toDigits_ne_nil, if_false, number]
      cases hk : procs[k]? with
      | none =>
        have : ¬ k < procs.length := by simpa using hk
        simp [Good, this]
      | some p =>
        obtain ⟨hlt, -⟩ := List.getElem?_eq_some_iff.mp hk
        simp only [Written.andThen, Bool.false_eq_true, if_false, List.mem_cons, forall_eq_or_imp, List.flatMap_cons]
        refine ⟨?_, fun hf => ?_⟩
        · rw [ih.1]; simp [Good, hlt]
        · rw [ih.2 hf]; simp [Member.source, hk, procText, word1]

theorem classes_raise (procs : List Proc) : ∀ (l : List ListingSpec.Cls), (∀ c ∈ l, ∀ m ∈ c.members, m.Plain) →
    ((classesText procs (l.map Cls.stored)).2 = false ↔ ∀ c ∈ l, ∀ m ∈ c.members, Good procs m) ∧
    ((classesText procs (l.map Cls.stored)).2 = false → (classesText procs (l.map Cls.stored)).1 = l.flatMap (Cls.upToEnd procs))
  | [], _ => by simp [classesText]
  | c :: l, h => by
    have ih := classes_raise procs l fun x hx => h x (List.mem_cons_of_mem _ hx)
    have hc := lines_raise procs c.members (h c List.mem_cons_self)
    have ht : classText procs c.stored = (defineWord ++ c.name ++ asWord ++ c.parent ++ ['\n'] ++
        (classLines procs (c.members.map Member.text)).1, (classLines procs (c.members.map Member.text)).2) := by
      simp only [classText, Cls.stored, word2, word3, members_split _ (h c List.mem_cons_self), Written.andThen, Bool.false_eq_true, if_false]
    simp only [List.map_cons, classesText, ht, Written.andThen, List.mem_cons, forall_eq_or_imp, List.flatMap_cons]
    rw [← hc.1]
    cases hr : (classLines procs (c.members.map Member.text)).2 with
    | true => simp
    | false =>
      simp only [Bool.false_eq_true, if_false, true_and]
      exact ⟨ih.1, fun hf => by rw [ih.2 hf, hc.2 hr]; rfl⟩

end ListingAux

/-- C128: the listing of a program without classes is its source.  Missing: classes (`C128_class_fails`). -/
theorem C128_listing_partial (procs : List Proc) : listing procs [] = (source procs [], false) := by
  simp [listing, Written.andThen, classesText, procsText_eq, source]

open ListingDemo in
example : listing prog.routines [] = ("? 5 \nPROCEDURE HI\n? 5 \n".toList, false) := by decide +kernel

/-- C128, exactly: the listing is written to its end if and only if every class has only methods, whose numbers are those of
procedures; a class with a property ends it with an exception. -/
theorem C128_complete_iff (procs : List Proc) (classes : List ListingSpec.Cls) (hp : ∀ c ∈ classes, ∀ m ∈ c.members, m.Plain) :
    (listing procs (classes.map Cls.stored)).2 = false ↔
      ∀ c ∈ classes, ∀ m ∈ c.members, match m with | .method _ k => k < procs.length | .line _ => False := by
  have := (classes_raise procs classes hp).1
  simp only [listing, Written.andThen, Bool.false_eq_true, if_false]
  rw [this]
  constructor <;> intro h c hc m hm <;> have := h c hc m hm <;> cases m <;> exact this

namespace ListingDemo
def procs : List Proc := [⟨[], 0, "? 1 \n".toList⟩, ⟨"INIT".toList, 1, "? 2 \n".toList⟩]
def cls : ListingSpec.Cls := ⟨"A".toList, "Custom".toList, [.method .isHidden 1]⟩
def clsx : ListingSpec.Cls := ⟨"A".toList, "Custom".toList, [.line "THIS.x = 5 ".toList, .method .isPublic 1]⟩
end ListingDemo

open ListingDemo in
example : listing procs [cls.stored] = ("? 1 \nDEFINE CLASS A AS Custom\nhidden PROCEDURE INIT\n? 2 \n".toList, false) ∧
    listing procs [clsx.stored] = ("? 1 \nDEFINE CLASS A AS Custom\n".toList, true) := by decide +kernel

/-- C128: a listing written to its end has all routines, all classes and all methods, in order and with their qualifiers and code.
Missing: the ENDDEFINE lines (`C128_class_fails`). -/
theorem C128_methods_partial (procs : List Proc) (classes : List ListingSpec.Cls) (hp : ∀ c ∈ classes, ∀ m ∈ c.members, m.Plain)
    (h : (listing procs (classes.map Cls.stored)).2 = false) :
    (listing procs (classes.map Cls.stored)).1 = procs.flatMap routineSource ++ classes.flatMap (Cls.upToEnd procs) := by
  have hc := classes_raise procs classes hp
  simp only [listing, Written.andThen, Bool.false_eq_true, if_false] at h ⊢
  rw [procsText_eq, hc.2 h]

open ListingDemo in
example : (listing procs [cls.stored]).2 = false ∧ cls.upToEnd procs = "DEFINE CLASS A AS Custom\nhidden PROCEDURE INIT\n? 2 \n".toList := by
  decide +kernel

/-- C128: the listing of a program with classes is never its source: either it ends with an exception or every ENDDEFINE is missing. -/
theorem C128_class_fails (procs : List Proc) (classes : List ListingSpec.Cls) (hne : classes ≠ []) (hp : ∀ c ∈ classes, ∀ m ∈ c.members, m.Plain) :
    listing procs (classes.map Cls.stored) ≠ (source procs classes, false) := by
  intro h
  have hc := classes_raise procs classes hp
  simp only [listing, Written.andThen, Bool.false_eq_true, if_false, Prod.mk.injEq] at h
  have ht := hc.2 h.2
  rw [procsText_eq, ht] at h
  have hl := congrArg List.length (List.append_cancel_left h.1)
  have hlt : ∀ l : List ListingSpec.Cls, (l.flatMap (Cls.upToEnd procs)).length + 10 * l.length = (l.flatMap (Cls.source procs)).length := by
    intro l
    induction l with
    | nil => rfl
    | cons c l ih =>
      have : (Cls.source procs c).length = (Cls.upToEnd procs c).length + 10 := by
        have e : enddefineLine.length = 10 := by decide
        simp only [Cls.source, List.length_append, e]
      simp only [List.flatMap_cons, List.length_append, List.length_cons, this]
      omega
  have := hlt classes
  have : 0 < classes.length := List.length_pos_iff.mpr hne
  omega

open ListingDemo in
example : source procs [cls] = "? 1 \nDEFINE CLASS A AS Custom\nhidden PROCEDURE INIT\n? 2 \nENDDEFINE\n".toList ∧
    (∀ c ∈ [cls], ∀ m ∈ c.members, m.Plain) := ⟨by decide +kernel, by simp [cls, Member.Plain]⟩

/-- C128: the exception ends the program: no listing is written for the programs behind. -/
theorem C128_others_fails (before after : List (List Char × List Proc × List Class)) (x : List Char × List Proc × List Class)
    (hx : (listing x.2.1 x.2.2).2 = true) : (listings (before ++ x :: after)).1.length ≤ before.length + 1 := by
  induction before with
  | nil =>
    obtain ⟨n, ps, cs⟩ := x
    simp only [List.nil_append, listings]
    simp [hx]
  | cons b before ih =>
    obtain ⟨n, ps, cs⟩ := b
    simp only [List.cons_append, listings]
    split
    · simp
    · simp only [List.length_cons]; omega

open ListingDemo in
example : (listings [("a".toList, procs, [clsx.stored]), ("b".toList, procs, [])]).1.map Prod.fst = ["a".toList] := by decide +kernel

/-- C128: a line that cannot be decoded stands in the listing in one line with the one that follows. -/
theorem C128_dump_fails (fmt : Nat → List Nat → Option String) (p q : List Nat) (ns : List (List Nat)) (after : List Nat)
    (hp : p.length + 2 < 65536) (hq : q.length + 2 < 65536) (hb : ∀ b ∈ p, b < 256) (hn : ∀ n ∈ ns, n.length < 65536) (hc : ns.length < 65536)
    (e : DErr) (he : parseLine fmt (ns.map latin1) (p ++ (record q ++ (nameTable ns ++ after))) p.length = .error e) (s : String)
    (hs : parseLine fmt (ns.map latin1) (q ++ (nameTable ns ++ after)) q.length = .ok (s, nameTable ns ++ after)) :
    readCode fmt (block [p, q] ns ++ after) 0 = .ok (hexDump p ++ s.toList) := by
  have hB := (C33_block fmt [p, q] ns after (by simp [hp, hq]) hn hc).1
  have h0 : seek (block [p, q] ns ++ after) 0 = .ok (block [p, q] ns ++ after) := rfl
  have ha : area [q] ++ (nameTable ns ++ after) = record q ++ (nameTable ns ++ after) := by simp [area]
  have h0' : area [] ++ (nameTable ns ++ after) = nameTable ns ++ after := rfl
  simp only [readCode, h0, hB, lift, entries, entryOf, ha, he, h0', hs, List.flatMap_cons, List.flatMap_nil, List.append_nil, rawText_spec p hb]

open ListingDemo in
example : (readCode (fun _ _ => none) (block [[0xEE, 0x01], print5.1] []) 0).toOption = some "ee 01? 5 \n".toList := by decide +kernel

end Props
