import Verif.Model.TextFiles
/-!
# Texts in files (C100), SYS(2000) (C101) and PROGRAM() (C102)
-/
namespace Props
open Model.TextFiles

namespace TextFileSpec

/-- The code points of a text in UTF-8. -/
def read8 : List Nat → List Nat
  | [] => []
  | a :: r =>
    if a < 128 then a :: read8 r
    else match r with
      | [] => []
      | b :: r =>
        if a < 224 then ((a - 192) * 64 + (b - 128)) :: read8 r
        else match r with
          | [] => []
          | c :: r =>
            if a < 240 then ((a - 224) * 4096 + (b - 128) * 64 + (c - 128)) :: read8 r
            else match r with
              | [] => []
              | d :: r => ((a - 240) * 262144 + (b - 128) * 4096 + (c - 128) * 64 + (d - 128)) :: read8 r

/-- The code points of a text in UTF-16, low byte first. -/
def read16 : List Nat → List Nat
  | a :: b :: r =>
    if 216 ≤ b ∧ b < 220 then
      match r with
      | c :: d :: r => (65536 + (b * 256 + a - 55296) * 1024 + (d * 256 + c - 56320)) :: read16 r
      | _ => []
    else (b * 256 + a) :: read16 r
  | _ => []

/-- The text that programs see in a file with a byte order mark of UTF-8 or UTF-16. -/
def contents (b : List Nat) : List Nat :=
  if b.take 3 = [239, 187, 191] then read8 (b.drop 3)
  else if b.take 2 = [255, 254] then read16 (b.drop 2)
  else b

end TextFileSpec
open TextFileSpec

namespace TextFileAux

theorem read8_char (c : Char) (r : List Nat) : read8 (utf8Char c ++ r) = c.toNat :: read8 r := by
  have hc : c.toNat < 1114112 := by
    have := c.valid
    unfold UInt32.isValidChar Nat.isValidChar at this
    have h2 : c.toNat = c.val.toNat := rfl
    omega
  unfold utf8Char
  simp only
  generalize c.toNat = n at *
  by_cases h1 : n < 128
  · rw [if_pos h1]
    simp only [List.cons_append, List.nil_append]
    rw [read8.eq_def]; simp only; rw [if_pos h1]
  · rw [if_neg h1]
    by_cases h2 : n < 2048
    · rw [if_pos h2]
      simp only [List.cons_append, List.nil_append]
      rw [read8.eq_def]; simp only; rw [if_neg (by omega), if_pos (by omega)]
      exact List.cons_eq_cons.mpr ⟨by omega, rfl⟩
    · rw [if_neg h2]
      by_cases h3 : n < 65536
      · rw [if_pos h3]
        simp only [List.cons_append, List.nil_append]
        rw [read8.eq_def]; simp only; rw [if_neg (by omega), if_neg (by omega), if_pos (by omega)]
        exact List.cons_eq_cons.mpr ⟨by omega, rfl⟩
      · rw [if_neg h3]
        simp only [List.cons_append, List.nil_append]
        rw [read8.eq_def]; simp only; rw [if_neg (by omega), if_neg (by omega), if_neg (by omega)]
        exact List.cons_eq_cons.mpr ⟨by omega, rfl⟩

theorem read8_utf8 (s : Str) : read8 (utf8 s) = s.map Char.toNat := by
  induction s with
  | nil => rfl
  | cons c s ih => show read8 (utf8Char c ++ utf8 s) = _; rw [read8_char, ih]; rfl

theorem read16_char (c : Char) (r : List Nat) : read16 (utf16Char c ++ r) = c.toNat :: read16 r := by
  have hc := c.valid
  unfold UInt32.isValidChar Nat.isValidChar at hc
  have h2 : c.toNat = c.val.toNat := rfl
  rw [← h2] at hc
  unfold utf16Char word
  simp only
  generalize c.toNat = n at *
  by_cases h1 : n < 65536
  · rw [if_pos h1]
    simp only [List.cons_append, List.nil_append]
    rw [read16.eq_def]; simp only; rw [if_neg (by omega)]
    exact List.cons_eq_cons.mpr ⟨by omega, rfl⟩
  · rw [if_neg h1]
    simp only [List.cons_append, List.nil_append]
    rw [read16.eq_def]; simp only; rw [if_pos (by omega)]
    exact List.cons_eq_cons.mpr ⟨by omega, rfl⟩

theorem read16_utf16 (s : Str) : read16 (s.flatMap utf16Char) = s.map Char.toNat := by
  induction s with
  | nil => rfl
  | cons c s ih => show read16 (utf16Char c ++ s.flatMap utf16Char) = _; rw [read16_char, ih]; rfl

theorem contents8 (s : Str) : contents ([239, 187, 191] ++ utf8 s) = s.map Char.toNat := by
  unfold contents
  rw [if_pos (by simp)]
  simp only [List.cons_append, List.nil_append, List.drop_succ_cons, List.drop_zero]
  exact read8_utf8 s

theorem contents16 (s : Str) : contents (utf16 s) = s.map Char.toNat := by
  unfold contents utf16 word
  simp only [List.cons_append, List.nil_append, List.drop_succ_cons, List.drop_zero, List.take_succ_cons, List.take_zero]
  rw [if_neg (by simp), if_pos (by simp)]
  exact read16_utf16 s

end TextFileAux
open TextFileAux

/-! ## C100: STRTOFILE and FILETOSTR -/

/-- C100: with the flags 2 and 4 the file contains the text, in UTF-16 or UTF-8 behind a byte order mark, all
other files stay as they are, and the value is the size of the file. -/
theorem C100_unicode (can : Str → Bool) (s name : Str) (flag : Int) (d : Disk) (hf : flag = 2 ∨ flag = 4) (hc : can name = true) :
    ∃ d' b, strtofile can s name flag d = some ((b.length : Int), d') ∧ d' name = some b ∧ contents b = s.map Char.toNat ∧
      ∀ f, f ≠ name → d' f = d f := by
  rcases hf with rfl | rfl
  · refine ⟨setFile d name (utf16 s), utf16 s, by simp [strtofile, hc, output, opened], by simp [setFile], contents16 s, fun f hf => by simp [setFile, hf]⟩
  · refine ⟨setFile d name ([239, 187, 191] ++ utf8 s), [239, 187, 191] ++ utf8 s, by simp [strtofile, hc, output, opened], by simp [setFile],
      contents8 s, fun f hf => by simp [setFile, hf]⟩

example : ∃ d', strtofile (fun _ => true) "aé€".toList "f".toList 4 (fun _ => none) = some (9, d') ∧ contents (((d' "f".toList).getD [])) = [97, 233, 8364] :=
  ⟨_, rfl, by decide⟩

/-- C100 fails with the flags 0 and 1 for every text and every file: nothing is written, the value is 0; with flag 0
what the file contained is lost. -/
theorem C100_plain_fails (can : Str → Bool) (s name : Str) (flag : Int) (d : Disk) (hf : flag = 0 ∨ flag = 1) (hc : can name = true) :
    ∃ d', strtofile can s name flag d = some (0, d') ∧ d' name = some (if flag = 1 then (d name).getD [] else []) ∧ ∀ f, f ≠ name → d' f = d f := by
  rcases hf with rfl | rfl
  · exact ⟨setFile d name [], by simp [strtofile, hc, output, opened], by simp [setFile], fun f hf => by simp [setFile, hf]⟩
  · exact ⟨setFile d name ((d name).getD []), by simp [strtofile, hc, output, opened], by simp [setFile], fun f hf => by simp [setFile, hf]⟩

example : ∃ d', strtofile (fun _ => true) "abc".toList "f".toList 0 (fun _ => some [1, 2]) = some (0, d') ∧ d' "f".toList = some [] :=
  let ⟨d', h1, h2, _⟩ := C100_plain_fails (fun _ => true) "abc".toList "f".toList 0 (fun _ => some [1, 2]) (.inl rfl) rfl
  ⟨d', h1, by simpa using h2⟩

/-- C100: a file that cannot be written and a flag that does not exist change nothing; the value is 0, or there
is an error. -/
theorem C100_refused (can : Str → Bool) (s name : Str) (flag : Int) (d : Disk) :
    (can name = false → (flag = 0 ∨ flag = 1 ∨ flag = 2 ∨ flag = 4) → strtofile can s name flag d = some (0, d)) ∧
    (¬ (flag = 0 ∨ flag = 1 ∨ flag = 2 ∨ flag = 4) → strtofile can s name flag d = none) := by
  constructor
  · intro hc hf
    unfold strtofile
    rw [if_pos hf, hc]; rfl
  · intro hf
    unfold strtofile
    rw [if_neg hf]

example : strtofile (fun _ => false) "a".toList "f".toList 2 (fun _ => none) = some (0, fun _ => none) :=
  (C100_refused _ _ _ 2 _).1 rfl (by decide)

/-- C100 fails for FILETOSTR of every file: it is an error. -/
theorem C100_read_fails (locale : Bytes → Option Str) (d : Disk) (name : Str) : filetostr locale d name = none := by
  unfold filetostr readFile
  cases h : d name with
  | none => rfl
  | some b => cases h2 : locale b <;> simp [h2, decodeLatin]

example : filetostr (fun b => some (b.map Char.ofNat)) (fun _ => some [97]) "f".toList = none := C100_read_fails _ _ _

/-! ## C101: SYS(2000) -/

namespace TextFileAux

/-- The values of `n` further calls of SYS(2000, skel, 1), whatever skeletons they are given. -/
def further (glob : Str → List Str) : List Str → Search → List Str
  | [], _ => []
  | k :: ks, st => (sys2000 glob k true st).1 :: further glob ks (sys2000 glob k true st).2

theorem further_eq (glob : Str → List Str) (ks : List Str) (fs : List Str) :
    further glob ks (some fs) = fs.take ks.length ++ List.replicate (ks.length - fs.length) [] := by
  induction ks generalizing fs with
  | nil => simp [further]
  | cons k ks ih =>
    cases fs with
    | nil =>
      show [] :: further glob ks (some []) = _
      rw [ih]
      simp [List.replicate_succ]
    | cons f fs =>
      show f :: further glob ks (some fs) = _
      rw [ih]
      simp

end TextFileAux

/-- C101: SYS(2000, skel) and the calls with a third argument behind it return the files that match, each one once and in
order, and then empty texts. -/
theorem C101_enumerates (glob : Str → List Str) (skel : Str) (ks : List Str) (st : Search) :
    (sys2000 glob skel false st).1 :: further glob ks (sys2000 glob skel false st).2 =
      (glob skel).take (ks.length + 1) ++ List.replicate (ks.length + 1 - (glob skel).length) [] := by
  have : (sys2000 glob skel false st).1 :: further glob ks (sys2000 glob skel false st).2 = further glob (skel :: ks) (some (glob skel)) := by
    have e : sys2000 glob skel false st = sys2000 glob skel true (some (glob skel)) := by simp [sys2000]
    rw [e]; rfl
  rw [this, further_eq]
  simp

example : (sys2000 (fun _ => ["a".toList, "b".toList]) "*".toList false none).1 ::
    further (fun _ => ["a".toList, "b".toList]) ["*".toList, "*".toList] (sys2000 (fun _ => ["a".toList, "b".toList]) "*".toList false none).2 =
    ["a".toList, "b".toList, []] := by rw [C101_enumerates]; decide

/-- C101: a search does not depend on the searches before it. -/
theorem C101_restart (glob : Str → List Str) (skel : Str) (st st' : Search) : sys2000 glob skel false st = sys2000 glob skel false st' := rfl

example : (sys2000 (fun _ => ["a".toList]) "*".toList false (some [])).1 = "a".toList := by
  rw [C101_restart _ _ _ none]; decide

/-! ## C102: PROGRAM() -/

/-- C102: PROGRAM() is the name of the running procedure in capital letters.  Missing: the main program, which is called
MAIN whatever its file is called (`C102_main_fails`). -/
theorem C102_current_partial (procs : List String) (p : String) : program (procs ++ [p]) none = .name (p.map Char.toUpper) := by
  unfold program trace frameName
  simp only [List.flatMap_append]
  rw [← List.cons_append, List.getLast?_append]
  rfl

example : program ["MAIN", "report"] none = .name "REPORT" := by
  rw [show (["MAIN", "report"] : List String) = ["MAIN"] ++ ["report"] from rfl, C102_current_partial]; decide +kernel

/-- C102 fails in every main program that is not called MAIN. -/
theorem C102_main_fails (file : String) (h : file.map Char.toUpper ≠ "MAIN") : program ["MAIN"] none ≠ .name (file.map Char.toUpper) := by
  rw [show (["MAIN"] : List String) = [] ++ ["MAIN"] from rfl, C102_current_partial]
  intro he
  have := Program.name.inj he
  rw [show "MAIN".map Char.toUpper = "MAIN" from by decide +kernel] at this
  exact h this.symm

example : program ["MAIN"] none ≠ .name ("invoice".map Char.toUpper) := C102_main_fails "invoice" (by decide +kernel)

/-- C102 fails for PROGRAM(-1) in every procedure: it is twice the level of the call. -/
theorem C102_level_fails (procs : List String) (n : Int) (hn : n < 0) :
    program procs (some n) = .level (2 * procs.length) ∧ (procs ≠ [] → program procs (some n) ≠ .level procs.length) := by
  have hl : (procs.flatMap fun p => ["scoper", p]).length = 2 * procs.length := by
    induction procs with
    | nil => rfl
    | cons p ps ih => simp [ih]; omega
  have : program procs (some n) = .level (2 * procs.length) := by
    unfold program trace
    simp only [hn, if_true, List.length_cons, hl, Program.level.injEq]
    omega
  refine ⟨this, fun hne => ?_⟩
  rw [this]
  have : 0 < procs.length := List.length_pos_iff.mpr hne
  intro h
  have := Program.level.inj h
  omega

example : program ["MAIN", "a"] (some (-1)) = .level 4 := (C102_level_fails ["MAIN", "a"] (-1) (by decide)).1

namespace TextFileAux

theorem getD_trace (procs : List String) (k : Nat) :
    (procs.flatMap fun p => ["scoper", p]).getD k "" = if k < 2 * procs.length then (if k % 2 = 0 then "scoper" else procs.getD (k / 2) "") else "" := by
  induction procs generalizing k with
  | nil => simp
  | cons p ps ih =>
    rcases k with _ | _ | k
    · simp
    · simp; omega
    · have := ih k
      show (ps.flatMap fun p => ["scoper", p]).getD k "" = _
      rw [this]
      have e1 : (k + 1 + 1) % 2 = k % 2 := by omega
      have e2 : (k + 1 + 1) / 2 = k / 2 + 1 := by omega
      have e3 : (k + 1 + 1 < 2 * (p :: ps).length) = (k < 2 * ps.length) := by simp only [List.length_cons, eq_iff_iff]; omega
      rw [e1, e2, List.getD_cons_succ]
      simp only [e3]

end TextFileAux

/-- C102 fails for PROGRAM(n): the procedure of level `n` is called SCOPER if `n` is odd, else it is the one of level
`n / 2`. -/
theorem C102_nth_fails (procs : List String) (n : Nat) (h1 : 1 ≤ n) (h2 : n ≤ procs.length) :
    program procs (some n) = if n % 2 = 1 then .name "SCOPER" else .name ((procs.getD (n / 2 - 1) "").map Char.toUpper) := by
  have hl : (procs.flatMap fun p => ["scoper", p]).length = 2 * procs.length := by
    clear h1 h2
    induction procs with
    | nil => rfl
    | cons p ps ih => simp [ih]; omega
  unfold program
  obtain ⟨m, rfl⟩ : ∃ m, n = m + 1 := ⟨n - 1, by omega⟩
  have hn : ¬ ((m + 1 : Nat) : Int) < 0 := by omega
  have h0 : ¬ ((m + 1 : Nat) : Int) = 0 := by omega
  have ht : (((m + 1 : Nat) : Int)).toNat = m + 1 := by omega
  simp only [if_neg hn, if_neg h0, ht]
  unfold trace
  rw [if_neg (by simp only [List.length_cons, hl]; omega), List.getD_cons_succ, getD_trace, if_pos (by omega)]
  by_cases hm : m % 2 = 0
  · rw [if_pos hm, if_pos (by omega)]
    unfold frameName
    rw [show "scoper".map Char.toUpper = "SCOPER" from by decide +kernel]
  · rw [if_neg hm, if_neg (by omega), show m / 2 = (m + 1) / 2 - 1 from by omega]
    rfl

example : program ["MAIN", "a", "b"] (some 1) = .name "SCOPER" ∧ program ["MAIN", "a", "b"] (some 2) = .name "MAIN" := by
  constructor
  · exact C102_nth_fails ["MAIN", "a", "b"] 1 (by decide) (by decide)
  · exact (C102_nth_fails ["MAIN", "a", "b"] 2 (by decide) (by decide)).trans (by decide +kernel)

end Props
