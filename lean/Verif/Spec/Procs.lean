/-!
# Search order of procedure files

A history is the list of commands, the last one first.
-/
namespace Spec.Procs

inductive Cmd (M : Type)
  /-- `SET PROCEDURE TO m`, possibly `ADDITIVE`. -/
  | set (m : M) (additive : Bool)
  /-- `RELEASE PROCEDURE m`. -/
  | release (m : M)

/-- `m` is searched: it was set, and since then neither released nor replaced. -/
def Active {M : Type} : List (Cmd M) → M → Prop
  | [], _ => False
  | .set a additive :: h, m => m = a ∨ (additive = true ∧ Active h m)
  | .release a :: h, m => m ≠ a ∧ Active h m

/-- `m` was set more recently than `n`. -/
def Newer {M : Type} : List (Cmd M) → M → M → Prop
  | [], _, _ => False
  | .set a _ :: h, m, n => n ≠ a ∧ (m = a ∨ Newer h m n)
  | .release _ :: h, m, n => Newer h m n

end Spec.Procs
