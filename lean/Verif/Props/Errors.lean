import Verif.Model.Errors
/-!
# C117: errors and the object of CATCH TO
-/
namespace Props

namespace ErrorsSpec
open Model.Errors (Val Str Stmt)

/-- What made an error. -/
inductive Cause where
  | error (v : Val)
  | throw (v : Val)
  | fault (number : Nat) (text : Str)
  deriving DecidableEq

/-- An error: its cause and the procedure and statement in which it occurred. -/
structure Err where
  cause : Cause
  procedure : Str
  at_ : Nat
  deriving DecidableEq

/-- An error caught: the procedure of the TRY and the statement of that procedure during which the error
occurred. -/
structure Caught where
  err : Err
  tryProcedure : Str
  during : Nat
  deriving DecidableEq

/-- The number of an error in FoxPro: 1098 for ERROR with a text, 2071 for THROW. -/
def number : Cause → Int
  | .error (.num n) => n
  | .error (.text _) => 1098
  | .throw _ => 2071
  | .fault n _ => n

/-- FoxPro's message for THROW. -/
def thrown : Str := "User Thrown Error".toList

/-- The message of an error, for FoxPro's table of messages. -/
def message (table : Int → Str) : Cause → Str
  | .error (.num n) => table n
  | .error (.text s) => s
  | .throw _ => thrown
  | .fault n _ => table n

mutual
/-- FoxPro: the errors that CATCH clauses receive in turn, and the error that leaves the statement with the
statement of this procedure during which it occurred. -/
def fox (procedure : Str) (active : Option (Err × Nat)) : Stmt → List Caught × Option (Err × Nat)
  | .other _ => ([], none)
  | .error a v => ([], some (⟨.error v, procedure, a⟩, a))
  | .throw a v => ([], some (⟨.throw v, procedure, a⟩, a))
  | .rethrow _ => ([], active)
  | .fault a n t => ([], some (⟨.fault n t, procedure, a⟩, a))
  | .message _ => ([], none)
  | .call a p body =>
    let r := foxs p none body
    (r.1, r.2.map fun e => (e.1, a))
  | .tryS body handler =>
    let r := foxs procedure active body
    match r.2 with
    | none => (r.1, none)
    | some e =>
      let h := foxs procedure (some e) handler
      (r.1 ++ ⟨e.1, procedure, e.2⟩ :: h.1, h.2)
def foxs (procedure : Str) (active : Option (Err × Nat)) : List Stmt → List Caught × Option (Err × Nat)
  | [] => ([], none)
  | s :: ss =>
    let r := fox procedure active s
    match r.2 with
    | some e => (r.1, some e)
    | none =>
      let rest := foxs procedure active ss
      (r.1 ++ rest.1, rest.2)
end

mutual
/-- THROW without a value stands only in CATCH lines, and MESSAGE() is not used. -/
def Proper (inCatch : Bool) : Stmt → Bool
  | .rethrow _ => inCatch
  | .message _ => false
  | .call _ _ body => Propers false body
  | .tryS body handler => Propers inCatch body && Propers true handler
  | _ => true
def Propers (inCatch : Bool) : List Stmt → Bool
  | [] => true
  | s :: ss => Proper inCatch s && Propers inCatch ss
end

end ErrorsSpec

namespace ErrorsAux
open Model.Errors ErrorsSpec

/-- The text of the Python exception. -/
def text : Cause → Str
  | .error v => str v
  | .throw v => str v
  | .fault _ t => t

/-- The object that CATCH TO receives. -/
def object (line : Nat → Nat) (func : Str → Str) (file : Str) (c : Caught) : Object :=
  ⟨text c.err.cause, line c.during, 0, file ++ ['.'] ++ func c.tryProcedure⟩

/-- An exception that stands for an error of this procedure. -/
def Stands (line : Nat → Nat) (func : Str → Str) (file p : Str) : Option Exc → Option (Err × Nat) → Prop
  | none, none => True
  | some x, some e => x.text = text e.1.cause ∧ ∃ rest, x.trace = ⟨file, func p, line e.2⟩ :: rest
  | _, _ => False

variable {line : Nat → Nat} {func : Str → Str} {file : Str}

theorem fromPy_stands {p : Str} {x : Exc} {e : Err × Nat} (h : Stands line func file p (some x) (some e)) :
    fromPy x = object line func file ⟨e.1, p, e.2⟩ := by
  obtain ⟨h1, rest, h2⟩ := h
  rw [fromPy, h2, h1]; rfl

mutual
theorem run_eq (p : Str) (ax : Option Exc) (ae : Option (Err × Nat)) (c : Bool)
    (ha : c = true → ae.isSome = true ∧ Stands line func file p ax ae) :
    ∀ s : Stmt, Proper c s = true →
      (run file (func p) ax (convert line func s)).1 = (fox p ae s).1.map (object line func file) ∧
      Stands line func file p (run file (func p) ax (convert line func s)).2 (fox p ae s).2
  | .other a, _ => ⟨rfl, trivial⟩
  | .error a v, _ => ⟨rfl, rfl, [], rfl⟩
  | .throw a v, _ => ⟨rfl, rfl, [], rfl⟩
  | .fault a n t, _ => ⟨rfl, rfl, [], rfl⟩
  | .message a, h => by simp [Proper] at h
  | .rethrow a, h => by
    obtain ⟨h1, h2⟩ := ha (by simpa [Proper] using h)
    refine ⟨rfl, ?_⟩
    cases ae with
    | none => simp at h1
    | some e =>
      cases ax with
      | none => exact h2.elim
      | some x => exact h2
  | .call a q body, h => by
    have ih := runs_eq q ax none false (by simp) body (by simpa [Proper] using h)
    rw [convert, run, fox]
    refine ⟨ih.1, ?_⟩
    generalize (runs file (func q) ax (converts line func body)).2 = r at ih
    generalize (foxs q none body).2 = r' at ih
    cases r with
    | none => cases r' with
      | none => trivial
      | some e => exact ih.2.elim
    | some x => cases r' with
      | none => exact ih.2.elim
      | some e => exact ⟨ih.2.1, _, rfl⟩
  | .tryS body handler, h => by
    rw [Proper, Bool.and_eq_true] at h
    have ih := runs_eq p ax ae c ha body h.1
    rw [convert, run, fox]
    obtain ⟨i1, i2⟩ := ih
    generalize runs file (func p) ax (converts line func body) = r at i1 i2
    generalize foxs p ae body = r' at i1 i2
    obtain ⟨o, r⟩ := r
    obtain ⟨o', r'⟩ := r'
    cases r with
    | none => cases r' with
      | none => exact ⟨i1, trivial⟩
      | some e => exact i2.elim
    | some x => cases r' with
      | none => exact i2.elim
      | some e =>
        have ih2 := runs_eq p (some x) (some e) true (fun _ => ⟨rfl, i2⟩) handler h.2
        refine ⟨?_, ih2.2⟩
        simp only at i1
        simp only [List.map_append, List.map_cons]
        rw [i1, ih2.1, fromPy_stands i2]
theorem runs_eq (p : Str) (ax : Option Exc) (ae : Option (Err × Nat)) (c : Bool)
    (ha : c = true → ae.isSome = true ∧ Stands line func file p ax ae) :
    ∀ ss : List Stmt, Propers c ss = true →
      (runs file (func p) ax (converts line func ss)).1 = (foxs p ae ss).1.map (object line func file) ∧
      Stands line func file p (runs file (func p) ax (converts line func ss)).2 (foxs p ae ss).2
  | [], _ => ⟨rfl, trivial⟩
  | s :: ss, h => by
    rw [Propers, Bool.and_eq_true] at h
    obtain ⟨i1, i2⟩ := run_eq p ax ae c ha s h.1
    have ih := runs_eq p ax ae c ha ss h.2
    rw [converts, runs, foxs]
    generalize run file (func p) ax (convert line func s) = r at i1 i2
    generalize fox p ae s = r' at i1 i2
    obtain ⟨o, r⟩ := r
    obtain ⟨o', r'⟩ := r'
    cases r with
    | none => cases r' with
      | none =>
        refine ⟨?_, ih.2⟩
        simp only at i1
        simp only [List.map_append]
        rw [i1, ih.1]
      | some e => exact i2.elim
    | some x => cases r' with
      | none => exact i2.elim
      | some e => exact ⟨i1, i2⟩
end

theorem caught_get {p : Str} {ss : List Stmt} (h : Propers false ss = true) {i : Nat} {c : Caught}
    (hc : (foxs p none ss).1[i]? = some c) :
    (runs file (func p) none (converts line func ss)).1[i]? = some (object line func file c) := by
  rw [(runs_eq p none none false (by simp) ss h).1, List.getElem?_map, hc]; rfl

/-- The demonstration: `outer` calls `inner` in a TRY; ERROR in `inner` is caught there, thrown again and
caught in `outer`; then THROW 7 in `outer`. -/
def demo : List Stmt :=
  [.tryS [.other 1, .call 2 "inner".toList [.other 10, .tryS [.error 11 (.text "no stock".toList)] [.other 12, .rethrow 13]], .other 3]
     [.tryS [.throw 4 (.num 7)] [.other 5]],
   .other 6]

end ErrorsAux

open Model.Errors ErrorsSpec ErrorsAux

/-- C117: the CATCH lines that run are those FoxPro runs, in the same order: each in the procedure of its TRY and for
an error during the same statement.  An error leaves the program exactly if one leaves in FoxPro, and during the
same statement. -/
theorem C117_control_partial (line : Nat → Nat) (func : Str → Str) (file p : Str) (ss : List Stmt)
    (h : Propers false ss = true) :
    (runs file (func p) none (converts line func ss)).1.map (fun o => (o.procedure, o.lineno)) =
      (foxs p none ss).1.map (fun c => (file ++ '.' :: func c.tryProcedure, line c.during)) ∧
    ((runs file (func p) none (converts line func ss)).2.map fun x => x.trace.head?) =
      (foxs p none ss).2.map fun e => some ⟨file, func p, line e.2⟩ := by
  obtain ⟨h1, h2⟩ := runs_eq (line := line) (func := func) (file := file) p none none false (by simp) ss h
  refine ⟨by rw [h1, List.map_map]; simp [object, Function.comp_def], ?_⟩
  generalize (runs file (func p) none (converts line func ss)).2 = a at h2
  generalize (foxs p none ss).2 = b at h2
  cases a <;> cases b <;> first | rfl | exact h2.elim | skip
  obtain ⟨-, rest, h2⟩ := h2
  simp [h2]

example : Propers false demo = true ∧ (foxs "outer".toList none demo).1.map (fun c => (c.tryProcedure, c.during)) =
      [("inner".toList, 11), ("outer".toList, 2), ("outer".toList, 4)] ∧
    (foxs "outer".toList none demo).2 = none := by decide +kernel

/-- C117: the message of the object is the text given to ERROR; with a number or THROW it is that value as
text, not FoxPro's message. -/
theorem C117_message_iff (table : Int → Str) (line : Nat → Nat) (func : Str → Str) (file p : Str) (ss : List Stmt)
    (h : Propers false ss = true) (i : Nat) (c : Caught) (hc : (foxs p none ss).1[i]? = some c) :
    ∃ o, (runs file (func p) none (converts line func ss)).1[i]? = some o ∧
      (o.message = message table c.err.cause ↔
        (∃ s, c.err.cause = .error (.text s)) ∨
        (∃ n, c.err.cause = .error (.num n) ∧ table n = (toString n).toList) ∨
        (∃ v, c.err.cause = .throw v ∧ str v = thrown) ∨
        (∃ n t, c.err.cause = .fault n t ∧ t = table n)) := by
  refine ⟨_, caught_get h hc, ?_⟩
  show text c.err.cause = _ ↔ _
  cases hh : c.err.cause with
  | error v => cases v with
    | num n =>
      show (toString n).toList = table n ↔ _
      constructor
      · exact fun e => .inr (.inl ⟨n, rfl, e.symm⟩)
      · rintro (⟨s, e⟩ | ⟨m, e, e2⟩ | ⟨v, e, _⟩ | ⟨m, t, e, _⟩)
        · cases e
        · injection e with e; injection e with e; rw [e, e2]
        · cases e
        · cases e
    | text s => exact ⟨fun _ => .inl ⟨s, rfl⟩, fun _ => rfl⟩
  | throw v =>
    constructor
    · exact fun e => .inr (.inr (.inl ⟨v, rfl, e⟩))
    · rintro (⟨s, e⟩ | ⟨m, e, _⟩ | ⟨w, e, e2⟩ | ⟨m, t, e, _⟩)
      · cases e
      · cases e
      · injection e with e; subst e; exact e2
      · cases e
  | fault n t =>
    constructor
    · exact fun e => .inr (.inr (.inr ⟨n, t, rfl, e⟩))
    · rintro (⟨s, e⟩ | ⟨m, e, _⟩ | ⟨w, e, _⟩ | ⟨m, u, e, e2⟩)
      · cases e
      · cases e
      · cases e
      · injection e with e e'; subst e; subst e'; exact e2

example : (foxs "outer".toList none demo).1[0]? =
      some ⟨⟨.error (.text "no stock".toList), "inner".toList, 11⟩, "inner".toList, 11⟩ ∧
    (runs "shop".toList "outer".toList none (converts (· + 20) id demo)).1[0]? =
      some ⟨"no stock".toList, 31, 0, "shop.inner".toList⟩ := by decide +kernel

/-- C117: the object never has the number of the error. -/
theorem C117_number_fails (line : Nat → Nat) (func : Str → Str) (file p : Str) (ss : List Stmt)
    (h : Propers false ss = true) (i : Nat) (c : Caught) (hc : (foxs p none ss).1[i]? = some c)
    (hn : number c.err.cause ≠ 0) :
    ∃ o, (runs file (func p) none (converts line func ss)).1[i]? = some o ∧ (o.errorno : Int) ≠ number c.err.cause :=
  ⟨_, caught_get h hc, fun e => hn (by rw [← e]; rfl)⟩

example : (foxs "outer".toList none demo).1.map (fun c => number c.err.cause) = [1098, 1098, 2071] ∧
    (runs "shop".toList "outer".toList none (converts (· + 20) id demo)).1.map (·.errorno) = [0, 0, 0] := by
  decide +kernel

/-- C117: the object names the procedure of the TRY and the line in it, which are those of the error only if
it occurred there. -/
theorem C117_place_iff (line : Nat → Nat) (func : Str → Str) (file p : Str) (ss : List Stmt)
    (hl : ∀ a b, line a = line b → a = b) (hf : ∀ a b, func a = func b → a = b)
    (h : Propers false ss = true) (i : Nat) (c : Caught) (hc : (foxs p none ss).1[i]? = some c) :
    ∃ o, (runs file (func p) none (converts line func ss)).1[i]? = some o ∧
      (o.lineno = line c.err.at_ ↔ c.during = c.err.at_) ∧
      (o.procedure = file ++ ['.'] ++ func c.err.procedure ↔ c.tryProcedure = c.err.procedure) := by
  refine ⟨_, caught_get h hc, ⟨hl _ _, fun e => congrArg line e⟩, ?_, fun e => ?_⟩
  · intro e
    exact hf _ _ (List.append_cancel_left e)
  · show file ++ ['.'] ++ func c.tryProcedure = _
    rw [e]

example : (foxs "outer".toList none demo).1[1]? =
      some ⟨⟨.error (.text "no stock".toList), "inner".toList, 11⟩, "outer".toList, 2⟩ ∧
    (runs "shop".toList "outer".toList none (converts (· + 20) id demo)).1[1]? =
      some ⟨"no stock".toList, 22, 0, "shop.outer".toList⟩ := by decide +kernel

/-- C117: MESSAGE() in CATCH lines fails, whatever the error; in FoxPro the lines go on. -/
theorem C117_message_function_fails (line : Nat → Nat) (func : Str → Str) (file p : Str) (body rest : List Stmt) (a : Nat)
    (h : Propers false body = true) (e : Err × Nat) (he : (foxs p none body).2 = some e) :
    (∃ x, (run file (func p) none (convert line func (.tryS body (.message a :: rest)))).2 = some x ∧ x.text = noMessage) ∧
    (fox p none (.tryS body (.message a :: rest))).2 = (foxs p (some e) rest).2 := by
  obtain ⟨_, h2⟩ := runs_eq (line := line) (func := func) (file := file) p none none false (by simp) body h
  rw [he] at h2
  rw [convert, run, fox, he]
  generalize (runs file (func p) none (converts line func body)).2 = r at h2
  cases r with
  | none => exact h2.elim
  | some x => exact ⟨⟨_, rfl, rfl⟩, rfl⟩

example : (fox "p".toList none (.tryS [.throw 1 (.num 7)] [.message 2, .other 3])).2 = none ∧
    ((run "f".toList "p".toList none (convert id id (.tryS [.throw 1 (.num 7)] [.message 2, .other 3]))).2).isSome = true := by
  decide +kernel

end Props
