import Verif.Model.OnError
/-!
# C118: ON ERROR
-/
namespace Props

namespace OnErrorSpec
open Model.OnError (Stmt Vars Target Cmd assign)

/-- A FoxPro program: the variables, the command of ON ERROR, and how often it ran. -/
structure Fox (σ ε : Type) where
  vars : σ
  command : Option (σ → Except ε σ)
  handled : Nat

mutual
/-- FoxPro: an error in a statement outside of TRY (of this procedure and its callers) runs the command
of ON ERROR, if there is one, and the program goes on behind the statement. -/
def fox {σ ε : Type} (inTry : Bool) : Stmt σ ε → Fox σ ε → Fox σ ε × Option ε
  | .act f, m =>
    match f m.vars with
    | .ok s => ({ m with vars := s }, none)
    | .error e =>
      if inTry then (m, some e)
      else
        match m.command with
        | none => (m, some e)
        | some c =>
          match c m.vars with
          | .ok s => ({ m with vars := s, handled := m.handled + 1 }, none)
          | .error e2 => ({ m with handled := m.handled + 1 }, some e2)
  | .onError h, m => ({ m with command := h }, none)
  | .call body, m => foxs inTry body m
  | .tryS body handler, m =>
    match foxs true body m with
    | (m1, none) => (m1, none)
    | (m1, some _) => foxs inTry handler m1
def foxs {σ ε : Type} (inTry : Bool) : List (Stmt σ ε) → Fox σ ε → Fox σ ε × Option ε
  | [], m => (m, none)
  | s :: ss, m =>
    match fox inTry s m with
    | (m1, none) => foxs inTry ss m1
    | (m1, some e) => (m1, some e)
end

/-- The effect of a command. -/
def effect : Cmd → Vars → Vars
  | .expression f, s => f s
  | .statement f, s => f s
  | .augmented t v, s => assign t (v s) s
  | .assign ts v, s => ts.foldl (fun r t => assign t (v s) r) s

end OnErrorSpec

namespace OnErrorAux
open Model.OnError OnErrorSpec

variable {σ ε : Type}

/-- Same variables and same command. -/
def Same (m : Machine σ ε) (f : Fox σ ε) : Prop := m.vars = f.vars ∧ m.error_func = f.command

mutual
/-- In TRY both run alike; outside they do as long as Python goes on. -/
theorem run_in : ∀ (s : Stmt σ ε) (m : Machine σ ε) (f : Fox σ ε), Same m f →
    (Same (run s m).1 (fox true s f).1 ∧ (run s m).2 = (fox true s f).2 ∧ (fox true s f).1.handled = f.handled)
  | .act g, m, f, h => by
    rw [run, fox, h.1]
    cases g f.vars with
    | ok s => exact ⟨⟨rfl, h.2⟩, rfl, rfl⟩
    | error e => exact ⟨h, rfl, rfl⟩
  | .onError c, m, f, h => ⟨⟨h.1, rfl⟩, rfl, rfl⟩
  | .call body, m, f, h => by rw [run, fox]; exact runs_in body m f h
  | .tryS body handler, m, f, h => by
    rw [run, fox]
    obtain ⟨h1, h2, h3⟩ := runs_in body m f h
    generalize runs body m = r at h1 h2
    generalize foxs true body f = r' at h1 h2 h3
    obtain ⟨m1, e⟩ := r
    obtain ⟨f1, e'⟩ := r'
    cases h2
    cases e with
    | none => exact ⟨h1, rfl, h3⟩
    | some e =>
      obtain ⟨i1, i2, i3⟩ := runs_in handler m1 f1 h1
      exact ⟨i1, i2, i3.trans h3⟩
theorem runs_in : ∀ (ss : List (Stmt σ ε)) (m : Machine σ ε) (f : Fox σ ε), Same m f →
    (Same (runs ss m).1 (foxs true ss f).1 ∧ (runs ss m).2 = (foxs true ss f).2 ∧ (foxs true ss f).1.handled = f.handled)
  | [], m, f, h => ⟨h, rfl, rfl⟩
  | s :: ss, m, f, h => by
    rw [runs, foxs]
    obtain ⟨h1, h2, h3⟩ := run_in s m f h
    generalize run s m = r at h1 h2
    generalize fox true s f = r' at h1 h2 h3
    obtain ⟨m1, e⟩ := r
    obtain ⟨f1, e'⟩ := r'
    cases h2
    cases e with
    | none =>
      obtain ⟨i1, i2, i3⟩ := runs_in ss m1 f1 h1
      exact ⟨i1, i2, i3.trans h3⟩
    | some e => exact ⟨h1, rfl, h3⟩
end

/-- Outside of TRY: either both run alike without the command, or Python raises and FoxPro ran the command
or ends too. -/
def Alike (m : Machine σ ε × Option ε) (f : Fox σ ε × Option ε) (n : Nat) : Prop :=
  (Same m.1 f.1 ∧ m.2 = f.2 ∧ f.1.handled = n) ∨ (m.2.isSome = true ∧ n < f.1.handled)

mutual
theorem handled_le (b : Bool) : ∀ (s : Stmt σ ε) (f : Fox σ ε), f.handled ≤ (fox b s f).1.handled
  | .act g, f => by
    rw [fox]
    cases g f.vars with
    | ok s => exact Nat.le_refl _
    | error e =>
      cases b with
      | true => exact Nat.le_refl _
      | false =>
        simp only [Bool.false_eq_true, if_false]
        cases f.command with
        | none => exact Nat.le_refl _
        | some c =>
          simp only
          cases c f.vars with
          | ok s => exact Nat.le_succ _
          | error e => exact Nat.le_succ _
  | .onError c, f => Nat.le_refl _
  | .call body, f => by rw [fox]; exact handleds_le b body f
  | .tryS body handler, f => by
    rw [fox]
    have h1 := handleds_le true body f
    generalize foxs true body f = r at h1
    obtain ⟨f1, e⟩ := r
    cases e with
    | none => exact h1
    | some e => exact Nat.le_trans h1 (handleds_le b handler f1)
theorem handleds_le (b : Bool) : ∀ (ss : List (Stmt σ ε)) (f : Fox σ ε), f.handled ≤ (foxs b ss f).1.handled
  | [], f => Nat.le_refl _
  | s :: ss, f => by
    rw [foxs]
    have h1 := handled_le b s f
    generalize fox b s f = r at h1
    obtain ⟨f1, e⟩ := r
    cases e with
    | none => exact Nat.le_trans h1 (handleds_le b ss f1)
    | some e => exact h1
end

mutual
theorem run_out : ∀ (s : Stmt σ ε) (m : Machine σ ε) (f : Fox σ ε), Same m f → Alike (run s m) (fox false s f) f.handled
  | .act g, m, f, h => by
    rw [run, fox, h.1]
    cases g f.vars with
    | ok s => exact .inl ⟨⟨rfl, h.2⟩, rfl, rfl⟩
    | error e =>
      simp only [Bool.false_eq_true, if_false]
      cases hc : f.command with
      | none => exact .inl ⟨h, rfl, rfl⟩
      | some c =>
        simp only
        cases c f.vars with
        | ok s => exact .inr ⟨rfl, Nat.lt_succ_self _⟩
        | error e => exact .inr ⟨rfl, Nat.lt_succ_self _⟩
  | .onError c, m, f, h => .inl ⟨⟨h.1, rfl⟩, rfl, rfl⟩
  | .call body, m, f, h => by rw [run, fox]; exact runs_out body m f h
  | .tryS body handler, m, f, h => by
    rw [run, fox]
    obtain ⟨h1, h2, h3⟩ := runs_in body m f h
    generalize runs body m = r at h1 h2
    generalize foxs true body f = r' at h1 h2 h3
    obtain ⟨m1, e⟩ := r
    obtain ⟨f1, e'⟩ := r'
    cases h2
    cases e with
    | none => exact .inl ⟨h1, rfl, h3⟩
    | some e =>
      have := runs_out handler m1 f1 h1
      simp only at h3 ⊢
      rw [← h3]; exact this
theorem runs_out : ∀ (ss : List (Stmt σ ε)) (m : Machine σ ε) (f : Fox σ ε), Same m f → Alike (runs ss m) (foxs false ss f) f.handled
  | [], m, f, h => .inl ⟨h, rfl, rfl⟩
  | s :: ss, m, f, h => by
    rw [runs, foxs]
    have hh := run_out s m f h
    have hl := handled_le false s f
    generalize run s m = r at hh
    generalize fox false s f = r' at hh hl
    obtain ⟨m1, e⟩ := r
    obtain ⟨f1, e'⟩ := r'
    rcases hh with ⟨h1, h2, h3⟩ | ⟨h1, h2⟩
    · cases h2
      cases e with
      | none =>
        have := runs_out ss m1 f1 h1
        simp only at h3 ⊢
        rw [← h3]; exact this
      | some e => exact .inl ⟨h1, rfl, h3⟩
    · cases e with
      | none => simp at h1
      | some e =>
        refine .inr ⟨rfl, ?_⟩
        cases e' with
        | none => exact Nat.lt_of_lt_of_le h2 (handleds_le false ss f1)
        | some e2 => exact h2
end

end OnErrorAux

open Model.OnError OnErrorSpec OnErrorAux

/-- C118: a converted program does what the FoxPro program does as long as no command of ON ERROR is run
in FoxPro. -/
theorem C118_on_error_partial {σ ε : Type} (ss : List (Stmt σ ε)) (v : σ)
    (h : (foxs false ss ⟨v, none, 0⟩).1.handled = 0) :
    (runs ss ⟨v, none⟩).1.vars = (foxs false ss ⟨v, none, 0⟩).1.vars ∧
    (runs ss ⟨v, none⟩).2 = (foxs false ss ⟨v, none, 0⟩).2 := by
  rcases runs_out ss ⟨v, none⟩ ⟨v, none, 0⟩ ⟨rfl, rfl⟩ with ⟨h1, h2, _⟩ | ⟨_, h2⟩
  · exact ⟨h1.1, h2⟩
  · simp only at h2; omega

example : (foxs false [.onError (some fun n => .ok (n + 100)), .tryS [.act fun _ => .error "e"] [.act fun n => .ok (n + 1)]]
    (⟨5, none, 0⟩ : Fox Nat String)).1.handled = 0 := by decide +kernel

/-- C118: whenever FoxPro runs the command of ON ERROR, the converted program has stopped with an
exception. -/
theorem C118_on_error_fails {σ ε : Type} (ss : List (Stmt σ ε)) (v : σ)
    (h : (foxs false ss ⟨v, none, 0⟩).1.handled ≠ 0) : (runs ss ⟨v, none⟩).2.isSome = true := by
  rcases runs_out ss ⟨v, none⟩ ⟨v, none, 0⟩ ⟨rfl, rfl⟩ with ⟨_, _, h3⟩ | ⟨h1, _⟩
  · exact absurd h3 h
  · exact h1

example : (foxs false [.onError (some fun n => .ok (n + 100)), .call [.act fun _ => .error "e", .act fun n => .ok (n + 1)], .act fun n => .ok (2 * n)]
      (⟨5, none, 0⟩ : Fox Nat String)).1.vars = 212 ∧
    (runs [.onError (some fun n => .ok (n + 100)), .call [.act fun _ => .error "e", .act fun n => .ok (n + 1)], .act fun n => .ok (2 * n)]
      (⟨5, none⟩ : Machine Nat String)).1.vars = 5 := by decide +kernel

/-- C118: the function made for the command does what the command does if the command is converted to an
expression or assigns one variable. -/
theorem C118_command_partial (c : Cmd)
    (h : (∃ f, c = .expression f) ∨ ∃ x v, c = .assign [.attribute x] v) :
    ∃ parts, onEvent c = .function parts ∧ ∀ s, evaluate parts s = effect c s := by
  rcases h with ⟨f, rfl⟩ | ⟨x, v, rfl⟩
  · exact ⟨_, rfl, fun _ => rfl⟩
  · exact ⟨_, rfl, fun _ => rfl⟩

example : onEvent (.assign [.attribute "failed"] fun s => s (.attribute "n") + 1) =
      .function [.setattr "failed" fun s => s (.attribute "n") + 1] ∧
    effect (.assign [.attribute "failed"] fun s => s (.attribute "n") + 1) (fun _ => 6) (.attribute "failed") = 7 :=
  ⟨rfl, by decide +kernel⟩

/-- C118: with several variables only the first is assigned. -/
theorem C118_store_fails (x : String) (xs : List String) (v : Vars → Int) (y : String) (hy : y ∈ xs) (hx : y ≠ x) (s : Vars)
    (hv : v s ≠ s (.attribute y)) :
    ∃ parts, onEvent (.assign ((x :: xs).map .attribute) v) = .function parts ∧
      evaluate parts s (.attribute y) = s (.attribute y) ∧
      effect (.assign ((x :: xs).map .attribute) v) s (.attribute y) = v s := by
  have h1 : ∀ xs : List String, (xs.map Target.attribute).mapM (part v) = some (xs.map fun x => Part.setattr x v) := by
    intro xs
    induction xs with
    | nil => rfl
    | cons x xs ih => rw [List.map_cons, List.mapM_cons, ih]; rfl
  refine ⟨(x :: xs).map fun x => Part.setattr x v, by rw [onEvent, h1], ?_, ?_⟩
  · rw [List.map_cons, evaluate, assign, if_neg]
    intro e
    injection e with e
    exact hx e
  · have h2 : ∀ (xs : List String) (r : Vars), y ∈ xs ∨ r (.attribute y) = v s →
        (xs.map Target.attribute).foldl (fun r t => assign t (v s) r) r (.attribute y) = v s := by
      intro xs
      induction xs with
      | nil => intro r h; simpa using h
      | cons x xs ih =>
        intro r h
        rw [List.map_cons, List.foldl_cons]
        apply ih
        by_cases e : y = x
        · right; rw [e, assign, if_pos rfl]
        · rcases h with h | h
          · left; simpa [e] using h
          · right
            rw [assign, if_neg, h]
            intro e'
            injection e' with e'
            exact e e'
    exact h2 (x :: xs) s (.inl (List.mem_cons_of_mem _ hy))

example : effect (.assign (["a", "b"].map .attribute) fun _ => 3) (fun _ => 0) (.attribute "b") = 3 ∧
    "b" ∈ ["b"] ∧ "b" ≠ "a" := by decide +kernel

/-- C118: there is no function for other commands: `ON ERROR x = x + 1` and assignments to elements of arrays end the
conversion with an exception, and for RETURN and the like the module is not Python. -/
theorem C118_command_fails (c : Cmd)
    (h : (∃ t v, c = .augmented t v) ∨ (∃ f, c = .statement f) ∨
      ∃ ts x i v, c = .assign ts v ∧ Target.subscript x i ∈ ts) : ∀ parts, onEvent c ≠ .function parts := by
  rcases h with ⟨t, v, rfl⟩ | ⟨f, rfl⟩ | ⟨ts, x, i, v, rfl, hm⟩
  · intro parts e; cases e
  · intro parts e; cases e
  · have h1 : ts.mapM (part v) = none := by
      induction ts with
      | nil => cases hm
      | cons t ts ih =>
        rw [List.mapM_cons]
        rcases List.mem_cons.mp hm with rfl | hm
        · rfl
        · rw [ih hm]; cases t <;> rfl
    intro parts e
    rw [onEvent, h1] at e
    cases e

example : Target.subscript "a" 2 ∈ [Target.attribute "x", .subscript "a" 2] := by decide

end Props
