import Verif.Model.DbCalls
/-!
# Converted database statements can be executed (C65)
-/
namespace Props
open Model.DbCalls

/-- C65, the exact answer: these statements are converted to calls that the library cannot take. -/
def NotExecutable : Stmt → Bool
  | .closeIndexes | .closeDatabases | .closeAll | .createDbf | .createCursor | .sqlSelect
  | .packDatabase | .update _ _ _ => true
  | .appendFrom for_ type => for_ || type
  | .count _ _ noopt | .sum _ _ noopt => noopt
  | _ => false

/-- C65 for all statements but those of `NotExecutable`, and false for exactly these. -/
theorem C65_executable_partial (s : Stmt) : accepted (emit s) = !NotExecutable s := by
  cases s with
  | use a => cases a <;> decide
  | locate a b c => cases a <;> cases b <;> cases c <;> decide
  | appendFrom a b => cases a <;> cases b <;> decide
  | replace a b c => rfl
  | delete a b c d => cases a <;> cases b <;> cases d <;> rfl
  | count a b c => cases a <;> cases b <;> cases c <;> decide
  | sum a b c => cases a <;> cases b <;> cases c <;> decide
  | update a b c => rfl
  | seek a b c => cases a <;> cases b <;> cases c <;> decide
  | scan a => cases a <;> decide
  | _ => decide

example : NotExecutable (.delete true true false true) = false ∧ NotExecutable (.update true true true) = true := by decide

/-- C65 fails for all statements of `NotExecutable`, so that none of their clauses makes them executable. -/
theorem C65_fails (s : Stmt) (h : NotExecutable s = true) : accepted (emit s) = false := by
  rw [C65_executable_partial, h]; rfl

example : accepted (emit .closeAll) = false ∧ accepted (emit .sqlSelect) = false ∧
    accepted (emit (.count false false true)) = false ∧ accepted (emit (.count true true false)) = true :=
  ⟨C65_fails _ rfl, C65_fails _ rfl, C65_fails _ rfl, by decide⟩

end Props
