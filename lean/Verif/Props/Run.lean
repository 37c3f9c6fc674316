import Verif.Model.Run
/-!
# C138: RUN

The command interpreter: arguments are separated by blanks; an argument in double quotes may contain blanks, and the quotes are no
part of it.
-/
namespace Props
open Model.Run

namespace RunSpec

/-- An argument as written, with the number of further blanks before it. -/
structure Arg where
  quoted : Bool
  text : Str
  blanks : Nat

/-- Without quotes an argument is not empty and has no blanks; quotes are not part of arguments. -/
def Arg.Ok (a : Arg) : Prop :=
  '"' ∉ a.text ∧ (a.quoted = false → a.text ≠ [] ∧ ∀ c ∈ a.text, c ∉ [' ', '\t', '\r', '\x0b', '\x0c'])

def Arg.render (a : Arg) : Str := List.replicate (a.blanks + 1) ' ' ++ (if a.quoted then '"' :: a.text ++ ['"'] else a.text)

/-- The command line behind RUN. -/
def command (as : List Arg) : Str := as.flatMap Arg.render

/-- What the program gets. -/
def received (as : List Arg) : List Str := as.map Arg.text

end RunSpec
open RunSpec

namespace RunAux

theorem blanks_nil (n : Nat) (s : Str) : splitFrom [] (List.replicate n ' ' ++ s) = splitFrom [] s := by
  induction n with
  | zero => rfl
  | succ n ih =>
    rw [List.replicate_succ, List.cons_append, splitFrom, if_pos (by decide), if_pos rfl]
    exact ih

theorem word (w : Str) (hw : ∀ c ∈ w, isSpace c = false) (cur s : Str) : splitFrom cur (w ++ s) = splitFrom (cur ++ w) s := by
  induction w generalizing cur with
  | nil => simp
  | cons c w ih =>
    rw [List.cons_append, splitFrom, hw c List.mem_cons_self, if_neg (by decide),
      ih (fun d hd => hw d (List.mem_cons_of_mem _ hd))]
    simp

/-- A word ends at a blank or at the end of the line. -/
theorem finish (w s : Str) (hw : w ≠ []) (hs : s = [] ∨ ∃ t, s = ' ' :: t) : splitFrom w s = w :: splitFrom [] s := by
  rcases hs with rfl | ⟨t, rfl⟩
  · simp [splitFrom, hw]
  · rw [splitFrom, if_pos (by decide), if_neg hw]
    congr 1

theorem command_start (as : List Arg) : command as = [] ∨ ∃ t, command as = ' ' :: t := by
  cases as with
  | nil => exact .inl rfl
  | cons a as =>
    refine .inr ⟨List.replicate a.blanks ' ' ++ (if a.quoted then '"' :: a.text ++ ['"'] else a.text) ++ command as, ?_⟩
    simp [command, Arg.render, List.replicate_succ]

theorem command_cons (a : Arg) (as : List Arg) :
    command (a :: as) = List.replicate (a.blanks + 1) ' ' ++ ((if a.quoted then '"' :: a.text ++ ['"'] else a.text) ++ command as) := by
  simp [command, Arg.render]

/-- Every character that is no blank is in one of the words. -/
theorem kept (c : Char) (hc : isSpace c = false) : ∀ (s cur : Str), c ∈ cur ++ s → ∃ w ∈ splitFrom cur s, c ∈ w := by
  intro s
  induction s with
  | nil =>
    intro cur h
    rw [List.append_nil] at h
    have hne : cur ≠ [] := List.ne_nil_of_mem h
    exact ⟨cur, by simp [splitFrom, hne], h⟩
  | cons d s ih =>
    intro cur h
    by_cases hd : isSpace d = true
    · have hcd : c ≠ d := fun e => by rw [e, hd] at hc; cases hc
      rw [splitFrom, if_pos hd]
      by_cases hcur : cur = []
      · rw [if_pos hcur]
        subst hcur
        refine ih [] ?_
        simpa [hcd] using h
      · rw [if_neg hcur]
        simp only [List.mem_append, List.mem_cons, hcd, false_or] at h
        rcases h with h | h
        · exact ⟨cur, List.mem_cons_self, h⟩
        · obtain ⟨w, h1, h2⟩ := ih [] (by simpa using h)
          exact ⟨w, List.mem_cons_of_mem _ h1, h2⟩
    · rw [splitFrom, if_neg hd]
      exact ih (cur ++ [d]) (by simpa using h)

end RunAux
open RunAux

namespace RunDemo
/-- ` notepad  "my file.txt"` -/
def quoted : List Arg := [⟨false, "notepad".toList, 0⟩, ⟨true, "my file.txt".toList, 1⟩]
def plain : List Arg := [⟨false, "xcopy".toList, 0⟩, ⟨false, "a.txt".toList, 1⟩, ⟨false, "/Y".toList, 0⟩]
end RunDemo

/-- **C138**: the program gets the arguments that the command line says exactly if none of them is in quotes. -/
theorem C138_arguments_iff (as : List Arg) (has : ∀ a ∈ as, a.Ok) :
    arguments (command as) = received as ↔ ∀ a ∈ as, a.quoted = false := by
  constructor
  · intro h a ha
    cases hq : a.quoted with
    | false => rfl
    | true =>
      exfalso
      have hm : '"' ∈ command as := by
        refine List.mem_flatMap.mpr ⟨a, ha, ?_⟩
        simp [Arg.render, hq]
      obtain ⟨w, h1, h2⟩ := kept '"' (by decide) (command as) [] (by simpa using hm)
      have h1 : w ∈ received as := h ▸ h1
      obtain ⟨b, hb, rfl⟩ := List.mem_map.mp h1
      exact (has b hb).1 h2
  · intro h
    unfold arguments
    induction as with
    | nil => rfl
    | cons a as ih =>
      have hq := h a List.mem_cons_self
      obtain ⟨hne, hbl⟩ := (has a List.mem_cons_self).2 hq
      have hsp : ∀ c ∈ a.text, isSpace c = false := fun c hc => by simpa [isSpace, and_assoc] using hbl c hc
      rw [command_cons, blanks_nil, hq]
      simp only [Bool.false_eq_true, if_false]
      rw [word a.text hsp, List.nil_append, finish a.text _ hne (command_start as),
        ih (fun b hb => has b (List.mem_cons_of_mem _ hb)) (fun b hb => h b (List.mem_cons_of_mem _ hb))]
      rfl

open RunDemo in
example : arguments (command plain) = received plain ∧
    arguments (command quoted) = ["notepad".toList, "\"my".toList, "file.txt\"".toList] := by decide +kernel

open RunDemo in
example : ∀ a ∈ quoted, a.Ok := by
  intro a ha
  simp only [quoted, List.mem_cons, List.not_mem_nil, or_false] at ha
  rcases ha with rfl | rfl
  · exact ⟨by decide, fun _ => ⟨by decide, by decide⟩⟩
  · exact ⟨by decide, fun h => by cases h⟩

/-- **C138 fails** for an argument with blanks in it: no argument that the program gets is the one in quotes, nor is there one with a
blank. -/
theorem C138_blank_fails (as : List Arg) (a : Arg) (_ha : a ∈ as) (hb : ' ' ∈ a.text) : a.text ∉ arguments (command as) := by
  have key : ∀ (s cur : Str), ' ' ∉ cur → ∀ w ∈ splitFrom cur s, ' ' ∉ w := by
    intro s
    induction s with
    | nil =>
      intro cur hc w hw
      rw [splitFrom] at hw
      split at hw
      · cases hw
      · simp only [List.mem_singleton] at hw; rw [hw]; exact hc
    | cons d s ih =>
      intro cur hc w hw
      rw [splitFrom] at hw
      split at hw
      · split at hw
        · exact ih [] (by simp) w hw
        · rcases List.mem_cons.mp hw with rfl | hw'
          · exact hc
          · exact ih [] (by simp) w hw'
      · next hd =>
        refine ih (cur ++ [d]) ?_ w hw
        simp only [List.mem_append, List.mem_singleton, not_or]
        refine ⟨hc, ?_⟩
        intro e
        rw [← e] at hd
        exact hd (by decide)
  intro h
  exact key (command as) [] (by simp) _ h hb

open RunDemo in
example : (quoted[1]).text = "my file.txt".toList ∧ ' ' ∈ (quoted[1]).text := by decide +kernel

end Props
