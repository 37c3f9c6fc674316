import Verif.Model.Shown
/-!
# C162: what `?` shows of a value
-/
namespace Props

namespace ShownSpec
open Model.Shown (Val)

/-- A text is filled with blanks on its left. -/
def fill (w : Nat) (s : List Char) : List Char := List.replicate (w - s.length) ' ' ++ s

/-- Two digits. -/
def two (n : Nat) : List Char := [Char.ofNat (48 + n / 10 % 10), Char.ofNat (48 + n % 10)]

/-- What FoxPro shows: texts as they are, whole numbers in ten columns, .T. or .F., .NULL., and dates as month, day and
year, with the century or not. -/
def fox (century : Bool) : Val → List Char
  | .text s => s
  | .whole n => fill 10 (toString n).toList
  | .logical true => ['.', 'T', '.']
  | .logical false => ['.', 'F', '.']
  | .null => ['.', 'N', 'U', 'L', 'L', '.']
  | .date y m d => two m ++ '/' :: (two d ++ '/' :: ((if century then two (y / 100) else []) ++ two y))

/-- A line: the values with blanks between them. -/
def foxLine (century : Bool) : List Val → List Char
  | [] => []
  | [v] => fox century v
  | v :: vs => fox century v ++ ' ' :: foxLine century vs

/-- Texts, and whole numbers that fill their columns. -/
def Kept : Val → Prop
  | .text _ => True
  | .whole n => 10 ≤ (toString n).toList.length
  | _ => False

end ShownSpec
open Model.Shown ShownSpec

namespace ShownAux

theorem digits_no (c : Char) (hc : c.toNat < 48) (w n : Nat) : c ∉ digits w n := by
  induction w generalizing n with
  | zero => simp [digits]
  | succ w ih =>
    rw [digits, List.mem_append, List.mem_singleton]
    rintro (h | h)
    · exact ih _ h
    · rw [h] at hc
      have hlt : n % 10 < 10 := Nat.mod_lt _ (by decide)
      have : ∀ k, k < 10 → ¬ (Char.ofNat (48 + k)).toNat < 48 := by decide
      exact this _ hlt hc

end ShownAux
open ShownAux

/-- C162, exactly: `?` shows a value as FoxPro does just if it is a text or a whole number of ten or more characters. -/
theorem C162_value_iff (century : Bool) (v : Val) : v.str = fox century v ↔ Kept v := by
  cases v with
  | text s => simp [Val.str, fox, Kept]
  | whole n =>
    simp only [Val.str, fox, Kept, fill]
    constructor
    · intro h
      have := congrArg List.length h
      simp only [List.length_append, List.length_replicate] at this
      omega
    · intro h
      rw [Nat.sub_eq_zero_of_le h]
      rfl
  | logical b => cases b <;> simp [Val.str, fox, Kept]
  | null => simp [Val.str, fox, Kept]
  | date y m d =>
    simp only [Kept, iff_false]
    intro h
    have h1 : '/' ∈ (Val.date y m d).str := by rw [h]; simp [fox]
    simp only [Val.str, List.mem_append, List.mem_cons] at h1
    rcases h1 with h1 | h1 | h1 | h1 | h1
    · exact digits_no '/' (by decide) _ _ h1
    · revert h1; decide
    · exact digits_no '/' (by decide) _ _ h1
    · revert h1; decide
    · exact digits_no '/' (by decide) _ _ h1

/-- A text and a long number; a short number, a logical value, .NULL. and a date. -/
example : Kept (.text "abc".toList) ∧ Kept (.whole 1234567890) ∧ ¬ Kept (.whole 5) ∧ ¬ Kept (.logical true) ∧ ¬ Kept .null ∧
    ¬ Kept (.date 2020 1 31) := by
  refine ⟨trivial, ?_, ?_, id, id, id⟩
  · show 10 ≤ _; decide +kernel
  · show ¬ 10 ≤ _; decide +kernel

/-- The texts that Python shows for them and those of FoxPro. -/
example : (Val.date 2020 1 31).str = "2020-01-31".toList ∧ fox false (.date 2020 1 31) = "01/31/20".toList ∧
    fox true (.date 2020 1 31) = "01/31/2020".toList ∧ (Val.whole 5).str = "5".toList ∧ fox true (.whole 5) = "         5".toList ∧
    (Val.logical true).str = "True".toList ∧ fox true (.logical true) = ".T.".toList := by decide +kernel

/-- C162 for lines of such values.  Missing: lines with other values (`C162_value_iff`, `C162_value_fails`). -/
theorem C162_line_partial (century : Bool) (vs : List Val) (h : ∀ v ∈ vs, Kept v) : line vs = foxLine century vs := by
  have key : ∀ vs : List Val, (∀ v ∈ vs, Kept v) → [' '].intercalate (vs.map Val.str) = foxLine century vs := by
    intro vs
    induction vs with
    | nil => intro _; rfl
    | cons v vs ih =>
      intro h
      have hv := (C162_value_iff century v).mpr (h v List.mem_cons_self)
      have hvs := ih fun w hw => h w (List.mem_cons_of_mem _ hw)
      cases vs with
      | nil => simp [List.intercalate, foxLine, hv]
      | cons w ws =>
        rw [foxLine, ← hvs, ← hv]
        simp [List.intercalate]
        simp
  exact key vs h

/-- `? "total", 1234567890` -/
example : line [.text "total".toList, .whole 1234567890] = "total 1234567890".toList := by decide +kernel

/-- C162 fails for every logical value, .NULL., date and short number: as the only value of a line it is shown differently. -/
theorem C162_value_fails (century : Bool) (v : Val) (h : ¬ Kept v) : line [v] ≠ foxLine century [v] := by
  intro e
  refine h ((C162_value_iff century v).mp ?_)
  simpa [line, List.intercalate, foxLine] using e

/-- `? .T.` -/
example : line [.logical true] = "True".toList ∧ foxLine false [.logical true] = ".T.".toList := by decide +kernel

end Props
