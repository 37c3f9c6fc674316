import Verif.Model.SqlConn
/-!
# C134: changes of a data source

FoxPro: SQLCONNECT returns a number, positive if there is a connection; unless another mode is chosen
every statement of SQLEXEC that succeeds lasts at once (transactions are automatic), so that SQLROLLBACK has
nothing to take back and SQLDISCONNECT, which returns 1, loses nothing.
-/
namespace Props
open Model.SqlConn

namespace SqlConnSpec
variable {σ : Type}

/-- The data after a program that uses an open connection. -/
def data (d : σ) : List (Cmd σ) → σ
  | [] => d
  | .exec f :: h => data ((f d).getD d) h
  | _ :: h => data d h

/-- Whether every change is committed before something takes it back; `dirty` says that there is one which
is not. -/
def Committed : Bool → List (Cmd σ) → Prop
  | dirty, [] => dirty = false
  | _, .exec _ :: h => Committed true h
  | _, .commit :: h => Committed false h
  | dirty, .rollback :: h => dirty = false ∧ Committed false h
  | _, .connect _ :: _ => False
  | _, .disconnect :: _ => False

/-- Commands between connecting and disconnecting. -/
def Inside (h : List (Cmd σ)) : Prop := ∀ c ∈ h, (∃ f, c = .exec f) ∨ c = .commit ∨ c = .rollback

end SqlConnSpec

open SqlConnSpec

namespace SqlConnAux
variable {σ : Type}

theorem run_cons (s : Source σ) (c : Cmd σ) (h : List (Cmd σ)) : run s (c :: h) = run (step s c).1 h := rfl

theorem run_append (s : Source σ) (g h : List (Cmd σ)) : run s (g ++ h) = run (run s g) h := by
  unfold run; rw [List.foldl_append]

theorem committed_data : ∀ (h : List (Cmd σ)) (dirty : Bool) (d w : σ), Committed dirty h → (dirty = false → d = w) →
    (run ⟨d, some w⟩ h).data = data w h ∧ (run ⟨d, some w⟩ h).work = some (data w h) := by
  intro h
  induction h with
  | nil => intro dirty d w hc hd; exact ⟨hd hc, rfl⟩
  | cons c h ih =>
    intro dirty d w hc hd
    rw [run_cons]
    cases c with
    | connect r => exact hc.elim
    | disconnect => exact hc.elim
    | exec f =>
      simp only [step, Option.bind_some, data]
      cases hf : f w with
      | none => exact ih true d w hc (fun h => by cases h)
      | some w' => exact ih true d w' hc (fun h => by cases h)
    | commit => exact ih false w w hc fun _ => rfl
    | rollback =>
      have := hd hc.1
      subst this
      exact ih false d d hc.2 fun _ => rfl

end SqlConnAux

open SqlConnAux

namespace SqlConnDemo
/-- A counter as the data of a source: `add n` adds `n`. -/
def add (n : Nat) : Cmd Nat := .exec fun d => some (d + n)
def bad : Cmd Nat := .exec fun _ => none
end SqlConnDemo

/-- **C134 (partial)**: a program that commits every change before it takes something back or disconnects leaves the
data that FoxPro leaves. -/
theorem C134_committed_partial {σ : Type} (d : σ) (h : List (Cmd σ)) (hc : Committed false h) :
    (run ⟨d, none⟩ (.connect true :: h ++ [.disconnect])) = ⟨data d h, none⟩ := by
  rw [run_append, List.singleton_append.symm, run_append]
  have := committed_data h false d d hc fun _ => rfl
  change Source.mk (run ⟨d, some d⟩ h).data none = _
  rw [this.1]

example : run ⟨5, none⟩ [.connect true, SqlConnDemo.add 1, SqlConnDemo.bad, SqlConnDemo.add 2, .commit, .rollback, .disconnect] = ⟨8, none⟩ := by
  decide

/-- **C134 fails** without SQLCOMMIT: whatever the statements of a program do, the data are the old ones after it. -/
theorem C134_lost_fails {σ : Type} (d : σ) (h : List (Cmd σ)) (inside : Inside h) (no : .commit ∉ h) :
    (run ⟨d, none⟩ (.connect true :: h ++ [.disconnect])) = ⟨d, none⟩ := by
  have key : ∀ (h : List (Cmd σ)) (w : σ), Inside h → .commit ∉ h → (run ⟨d, some w⟩ h).data = d := by
    intro h
    induction h with
    | nil => intro w _ _; rfl
    | cons c h ih =>
      intro w hi hn
      rw [run_cons]
      have hi' : Inside h := fun x hx => hi x (List.mem_cons_of_mem _ hx)
      have hn' : .commit ∉ h := fun hx => hn (List.mem_cons_of_mem _ hx)
      rcases hi c List.mem_cons_self with ⟨f, rfl⟩ | rfl | rfl
      · simp only [step, Option.bind_some]
        cases f w with
        | none => exact ih w hi' hn'
        | some w' => exact ih w' hi' hn'
      · exact absurd List.mem_cons_self hn
      · exact ih d hi' hn'
  rw [run_append, List.singleton_append.symm, run_append]
  change Source.mk (run ⟨d, some d⟩ h).data none = _
  rw [key h d inside no]

example : (run ⟨5, none⟩ [.connect true, SqlConnDemo.add 1, SqlConnDemo.add 2, .disconnect]).data = 5 ∧
    data 5 [SqlConnDemo.add 1, SqlConnDemo.add 2] = 8 := by decide

/-- **C134 fails** for SQLROLLBACK: it takes back all that was done since the last SQLCOMMIT. -/
theorem C134_rollback_fails {σ : Type} (d : σ) (g h : List (Cmd σ)) (hg : Committed false g) (inside : Inside h)
    (no : .commit ∉ h) : (run ⟨d, none⟩ (.connect true :: g ++ h ++ [.rollback, .commit, .disconnect])) = ⟨data d g, none⟩ := by
  have key : ∀ (h : List (Cmd σ)) (e w : σ), Inside h → .commit ∉ h → ∃ w', run ⟨e, some w⟩ h = ⟨e, some w'⟩ := by
    intro h
    induction h with
    | nil => intro e w _ _; exact ⟨w, rfl⟩
    | cons c h ih =>
      intro e w hi hn
      rw [run_cons]
      have hi' : Inside h := fun x hx => hi x (List.mem_cons_of_mem _ hx)
      have hn' : .commit ∉ h := fun hx => hn (List.mem_cons_of_mem _ hx)
      rcases hi c List.mem_cons_self with ⟨f, rfl⟩ | rfl | rfl
      · simp only [step, Option.bind_some]
        cases f w with
        | none => exact ih e w hi' hn'
        | some w' => exact ih e w' hi' hn'
      · exact absurd List.mem_cons_self hn
      · exact ih e e hi' hn'
  have h1 := committed_data g false d d hg fun _ => rfl
  have h2 : run ⟨d, none⟩ (.connect true :: g) = ⟨data d g, some (data d g)⟩ := by
    rw [run_cons]
    change run ⟨d, some d⟩ g = _
    generalize run ⟨d, some d⟩ g = r at h1
    obtain ⟨a, b⟩ := r
    simp only at h1
    rw [h1.1, h1.2]
  obtain ⟨w', hw⟩ := key h (data d g) (data d g) inside no
  rw [run_append, run_append, h2, hw]
  rfl

example : (run ⟨5, none⟩ [.connect true, SqlConnDemo.add 1, .commit, SqlConnDemo.add 2, .rollback, .commit, .disconnect]).data = 6 ∧
    data 5 [SqlConnDemo.add 1, .commit, SqlConnDemo.add 2, .rollback, .commit] = 8 := by decide

/-- **C134 fails** for the values: a program that tests whether the handle is positive stops with an exception if there
is a connection, a failed connection is an exception and no negative number, and SQLDISCONNECT gives no number. -/
theorem C134_handle_fails {σ : Type} (s : Source σ) :
    (∀ v, (step s (.connect true)).2 = some v → positive v = none) ∧ (step s (.connect false)).2 = none ∧
    (step s .disconnect).2.map positive = some none := ⟨fun v h => by cases h; rfl, rfl, rfl⟩

example : (step ⟨5, none⟩ (.connect true)).2 = some .connection := by decide

/-- **C134**: SQLEXEC, SQLCOMMIT and SQLROLLBACK give 1 when they succeed, otherwise -1, and then they change nothing;
with a connection only SQLEXEC can fail. -/
theorem C134_values {σ : Type} (s : Source σ) (c : Cmd σ) (hc : (∃ f, c = .exec f) ∨ c = .commit ∨ c = .rollback) :
    ((step s c).2 = some (.num 1) ∨ (step s c).2 = some (.num (-1)) ∧ (step s c).1 = s) ∧
    ((step s c).2 = some (.num 1) ↔ ∃ w, s.work = some w ∧ ∀ f, c = .exec f → (f w).isSome) := by
  obtain ⟨d, w⟩ := s
  rcases hc with ⟨f, rfl⟩ | rfl | rfl
  · cases w with
    | none => exact ⟨.inr ⟨rfl, rfl⟩, by simp [step]⟩
    | some w => cases h : f w <;> simp [step, h]
  · cases w <;> simp [step]
  · cases w <;> simp [step]

example : (step ⟨5, some 6⟩ SqlConnDemo.bad).2 = some (.num (-1)) ∧ (step ⟨5, some 6⟩ (.commit)).2 = some (.num 1) := by decide

end Props
