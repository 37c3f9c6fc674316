import Verif.Model.VarType
/-!
# C148: VARTYPE
-/
namespace Props
open Model.VarType

namespace VarTypeSpec

/-- The letter of the documentation of VARTYPE. -/
inductive Letter : Value → Char → Prop
  | text (s) : Letter (.text s) 'C'
  | number (r w) : Letter (.number r w) 'N'
  | currency (r) : Letter (.currency r) 'Y'
  | date (d) : Letter (.date d) 'D'
  | datetime (d s) : Letter (.datetime d s) 'T'
  | logical (b) : Letter (.logical b) 'L'
  | null : Letter .null 'X'
  | object : Letter .object 'O'
  | binary (b) : Letter (.binary b) 'Q'
  | array (v rest c) : Letter v c → Letter (.array v rest) c

/-- What VARTYPE(name) is in FoxPro; a name that is not defined is no error. -/
inductive VarType (variables : String → Option Value) (name : String) : Char → Prop
  | defined (v c) : variables name = some v → Letter v c → VarType variables name c
  | undefined : variables name = none → VarType variables name 'U'

/-- Currency, binary values, the empty date and arrays whose first element is no object. -/
def Lost : Value → Prop
  | .currency _ => True
  | .binary _ => True
  | .date none => True
  | .array v _ => ¬ Letter v 'O'
  | _ => False

end VarTypeSpec

open VarTypeSpec

namespace VarTypeAux

theorem letter_unique {v : Value} {c d : Char} (h : Letter v c) (h' : Letter v d) : c = d := by
  induction h with
  | array v rest c _ ih => cases h' with | array _ _ _ h => exact ih h
  | _ => cases h'; rfl

end VarTypeAux

open VarTypeAux

/-- C148: VARTYPE(name) gives the letter of FoxPro exactly if the name is defined and its value is no amount of
currency, no binary value, not the empty date and no array, except one whose first element is an object. -/
theorem C148_vartype_iff (variables : String → Option Value) (name : String) :
    (∃ c, call variables name 0 = some c ∧ VarType variables name c) ↔ ∃ v, variables name = some v ∧ ¬ Lost v := by
  constructor
  · rintro ⟨c, hc, hv⟩
    cases hv with
    | undefined h => simp [call, h] at hc
    | defined v c h hl =>
      refine ⟨v, h, fun hlost => ?_⟩
      simp only [call, h, ne_eq, not_true_eq_false, if_false, Option.map_some, Option.some.injEq] at hc
      cases v with
      | currency r => cases hl; simp [letter, pyType] at hc
      | binary b => cases hl; simp [letter, pyType] at hc
      | date d => cases d with
        | none => cases hl; simp [letter, pyType] at hc
        | some d => exact hlost
      | array v rest =>
        cases hl with
        | array _ _ _ hl =>
          simp only [letter, pyType] at hc
          subst hc
          exact hlost hl
      | _ => exact hlost
  · rintro ⟨v, h, hl⟩
    refine ⟨letter (pyType v), by simp [call, h], .defined v _ h ?_⟩
    cases v with
    | text s => exact .text s
    | number r w => cases w <;> exact .number r _
    | currency r => exact absurd trivial hl
    | date d => cases d with
      | none => exact absurd trivial hl
      | some d => exact .date (some d)
    | datetime d s => exact .datetime d s
    | logical b => exact .logical b
    | null => exact .null
    | object => exact .object
    | binary b => exact absurd trivial hl
    | array v rest => exact .array v rest _ (Classical.byContradiction hl)

namespace VarTypeDemo

/-- `n` is a number, `d` the empty date, `x` is not defined. -/
def vars : String → Option Value := fun s =>
  if s = "n" then some (.number (3 / 2) false) else if s = "d" then some (.date none) else none

end VarTypeDemo

open VarTypeDemo

example : ∃ c, call vars "n" 0 = some c ∧ VarType vars "n" c :=
  (C148_vartype_iff vars "n").2 ⟨_, by simp [vars]; rfl, by simp [Lost]⟩

/-- C148 fails: VARTYPE of a name that is not defined raises an exception instead of returning "U", so that it cannot be
used to find out whether a variable exists. -/
theorem C148_undefined_fails (variables : String → Option Value) (name : String) (h : variables name = none) :
    call variables name 0 = none ∧ VarType variables name 'U' := ⟨by simp [call, h], .undefined h⟩

example : call vars "x" 0 = none ∧ VarType vars "x" 'U' := C148_undefined_fails vars "x" (by simp [vars])

/-- C148 fails: the letters of the values that are not right. -/
theorem C148_letter_fails (variables : String → Option Value) (name : String) (v : Value) (h : variables name = some v) (hl : Lost v) :
    ∃ c d, call variables name 0 = some c ∧ Letter v d ∧ c ≠ d := by
  have total : ∀ v : Value, ∃ d, Letter v d := by
    intro v
    induction v using Value.rec (motive_2 := fun _ => True) with
    | text s => exact ⟨_, .text s⟩
    | number r w => exact ⟨_, .number r w⟩
    | currency r => exact ⟨_, .currency r⟩
    | date d => exact ⟨_, .date d⟩
    | datetime d s => exact ⟨_, .datetime d s⟩
    | logical b => exact ⟨_, .logical b⟩
    | null => exact ⟨_, .null⟩
    | object => exact ⟨_, .object⟩
    | binary b => exact ⟨_, .binary b⟩
    | array v rest ih => obtain ⟨d, hd⟩ := ih; exact ⟨d, .array v rest d hd⟩
    | nil => trivial
    | cons => trivial
  obtain ⟨d, hd⟩ := total v
  refine ⟨letter (pyType v), d, by simp [call, h], hd, fun hcd => ?_⟩
  exact (((C148_vartype_iff variables name).1 ⟨_, by simp [call, h], .defined v _ h (hcd ▸ hd)⟩).elim
    (fun w hw => hw.2 (by rw [h] at hw; rw [← Option.some.inj hw.1]; exact hl)))

example : ∃ c d, call vars "d" 0 = some c ∧ Letter (.date none) d ∧ c ≠ d :=
  C148_letter_fails vars "d" (.date none) (by simp [vars]) trivial

/-- C148 fails: with a second argument the call raises an exception. -/
theorem C148_second_fails (variables : String → Option Value) (name : String) (more : Nat) (h : more ≠ 0) :
    call variables name more = none := by simp [call, h]

example : call vars "n" 1 = none := C148_second_fails vars "n" 1 (by decide)

end Props
