import Verif.Model.Commands
/-!
# C120: commands about the program, menus, forms and events
-/
namespace Props

namespace CommandsSpec
open Model.Commands (Cmd Fields ScatterTo)

/-- The commands that can be executed after conversion. -/
def Executable : Cmd → Bool
  | .quit | .wait | .text _ | .onError | .onShutdown | .onEscape => true
  | .clear _ => true
  | .scatter f _ _ to => f != .like && f != .except_ && to != .name true
  | .gather f _ _ => f != .like && f != .except_
  | _ => false

end CommandsSpec

open Model.Commands CommandsSpec

/-- C120: QUIT, WAIT, CLEAR, TEXT, ON ERROR, ON SHUTDOWN, ON ESCAPE, and SCATTER and GATHER without LIKE, EXCEPT and
ADDITIVE become code that the library executes; no other of these commands does. -/
theorem C120_executable_iff (c : Cmd) : runs (emit c) = Executable c := by
  cases c with
  | clear n => simp [emit, runs, library, accepts, Executable]
  | text b => cases b <;> decide
  | scatter f memo blank to =>
    cases to with
    | name a => cases f <;> cases memo <;> cases blank <;> cases a <;> decide
    | _ => cases f <;> cases memo <;> cases blank <;> decide
  | gather f memo m => cases f <;> cases memo <;> cases m <;> decide
  | doForm a b c d => rfl
  | defineMenu a b c d => rfl
  | definePopup a b c d => rfl
  | defineBar a => rfl
  | activateMenu a b => rfl
  | _ => decide

example : Executable (.scatter .list true false (.name false)) = true ∧ Executable (.gather .like false false) = false := by
  decide

/-- C120: programs with menus, forms or READ EVENTS stop at the first such command. -/
theorem C120_events_fails (name linked args noshow window bar line nomargin : Bool) :
    runs (emit .readEvents) = false ∧ runs (emit (.doForm name linked args noshow)) = false ∧
    runs (emit (.defineMenu window bar line nomargin)) = false ∧ runs (emit .onKey) = false ∧
    emit .readEvents ≠ .nothing ∧ emit (.doForm name linked args noshow) ≠ .nothing ∧ emit .onKey ≠ .nothing := by
  refine ⟨rfl, rfl, rfl, rfl, ?_, ?_, ?_⟩ <;> intro h <;> cases h

example : emit (.doForm true true false true) = .call ⟨"do_form", 1, ["name", "linked", "noshow"]⟩ := by decide

end Props
