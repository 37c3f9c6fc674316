import Verif.Model.Procs
/-!
# Procedure files (C50)
-/
namespace Props
open Model.Procs Spec.Procs

variable {M K V : Type} [DecidableEq M]

namespace ProcsAux

/-- `m` stands before `n` in the list. -/
def Before (l : List M) (m n : M) : Prop := ∃ a b, l = a ++ m :: b ∧ n ∈ b

theorem before_cons {l : List M} {x m n : M} : Before (x :: l) m n ↔ (m = x ∧ n ∈ l) ∨ Before l m n := by
  constructor
  · rintro ⟨a, b, h, hn⟩
    cases a with
    | nil => rw [List.nil_append, List.cons.injEq] at h; exact .inl ⟨h.1.symm, h.2 ▸ hn⟩
    | cons y a => rw [List.cons_append, List.cons.injEq] at h; exact .inr ⟨a, b, h.2, hn⟩
  · rintro (⟨rfl, h⟩ | ⟨a, b, rfl, h⟩)
    · exact ⟨[], l, rfl, h⟩
    · exact ⟨x :: a, b, rfl, h⟩

theorem before_mem {l : List M} {m n : M} (h : Before l m n) : m ∈ l ∧ n ∈ l := by
  obtain ⟨a, b, rfl, hn⟩ := h
  simp [hn]

theorem before_erase {l : List M} {x m n : M} (hnd : l.Nodup) : Before (l.erase x) m n ↔ m ≠ x ∧ n ≠ x ∧ Before l m n := by
  induction l with
  | nil =>
    constructor
    · rintro ⟨a, b, h, _⟩; simp at h
    · rintro ⟨_, _, a, b, h, _⟩; simp at h
  | cons y l ih =>
    rw [List.nodup_cons] at hnd
    by_cases hy : y = x
    · subst hy
      rw [List.erase_cons_head, before_cons]
      constructor
      · intro h
        have := before_mem h
        exact ⟨fun e => hnd.1 (e ▸ this.1), fun e => hnd.1 (e ▸ this.2), .inr h⟩
      · rintro ⟨h1, h2, ⟨h, _⟩ | h⟩
        · exact absurd h h1
        · exact h
    · rw [List.erase_cons_tail (by simpa using hy), before_cons, before_cons, ih hnd.2]
      constructor
      · rintro (⟨rfl, h⟩ | ⟨h1, h2, h⟩)
        · rw [List.Nodup.mem_erase_iff hnd.2] at h
          exact ⟨hy, h.1, .inl ⟨rfl, h.2⟩⟩
        · exact ⟨h1, h2, .inr h⟩
      · rintro ⟨h1, h2, ⟨rfl, h⟩ | h⟩
        · left; exact ⟨rfl, (List.Nodup.mem_erase_iff hnd.2).mpr ⟨h2, h⟩⟩
        · exact .inr ⟨h1, h2, h⟩

theorem set_spec (l : List M) (x : M) (b : Bool) (hnd : l.Nodup) :
    (setProcedure l x b).Nodup ∧ (∀ m, m ∈ setProcedure l x b ↔ m = x ∨ (b = true ∧ m ∈ l)) ∧
    (∀ m n, Before (setProcedure l x b) m n ↔ n ≠ x ∧ b = true ∧ ((m = x ∧ n ∈ l) ∨ Before l m n ∧ m ≠ x)) := by
  unfold setProcedure
  cases b with
  | false =>
    refine ⟨by simp, by simp, ?_⟩
    intro m n
    constructor
    · intro h
      rw [if_neg (by decide), before_cons] at h
      rcases h with ⟨_, h⟩ | h
      · simp at h
      · exact absurd (before_mem h).1 (by simp)
    · rintro ⟨_, h, _⟩; cases h
  | true =>
    rw [if_pos rfl]
    split
    · rename_i hx
      refine ⟨?_, ?_, ?_⟩
      · rw [List.nodup_cons]
        exact ⟨fun h => ((List.Nodup.mem_erase_iff hnd).mp h).1 rfl, hnd.erase x⟩
      · intro m
        rw [List.mem_cons, List.Nodup.mem_erase_iff hnd]
        constructor
        · rintro (h | h)
          · exact .inl h
          · exact .inr ⟨rfl, h.2⟩
        · rintro (h | ⟨_, h⟩)
          · exact .inl h
          · by_cases e : m = x
            · exact .inl e
            · exact .inr ⟨e, h⟩
      · intro m n
        rw [before_cons, before_erase hnd, List.Nodup.mem_erase_iff hnd]
        constructor
        · rintro (⟨h1, h2⟩ | ⟨h1, h2, h3⟩)
          · exact ⟨h2.1, rfl, .inl ⟨h1, h2.2⟩⟩
          · exact ⟨h2, rfl, .inr ⟨h3, h1⟩⟩
        · rintro ⟨h1, _, ⟨h2, h3⟩ | ⟨h2, h3⟩⟩
          · exact .inl ⟨h2, h1, h3⟩
          · exact .inr ⟨h3, h1, h2⟩
    · rename_i hx
      refine ⟨List.nodup_cons.mpr ⟨hx, hnd⟩, by simp, ?_⟩
      intro m n
      rw [before_cons]
      constructor
      · rintro (⟨h1, h2⟩ | h)
        · exact ⟨fun e => hx (e ▸ h2), rfl, .inl ⟨h1, h2⟩⟩
        · exact ⟨fun e => hx (e ▸ (before_mem h).2), rfl, .inr ⟨h, fun e => hx (e ▸ (before_mem h).1)⟩⟩
      · rintro ⟨_, _, h | ⟨h, _⟩⟩
        · exact .inl h
        · exact .inr h

theorem release_one (l : List M) (x : M) : (releaseProcedure l [x]).1 = l.erase x := by
  simp only [releaseProcedure]
  split
  · rfl
  · rename_i h; rw [List.erase_of_not_mem h]

/-- The list holds exactly the active modules, without repetition, the newest first. -/
theorem run_spec : ∀ h : List (Cmd M), (run h).Nodup ∧ (∀ m, m ∈ run h ↔ Active h m) ∧
    (∀ m n, Before (run h) m n ↔ Active h m ∧ Active h n ∧ Newer h m n ∧ m ≠ n)
  | [] => ⟨by simp [run], by simp [run, Active], by
      intro m n
      constructor
      · intro h; exact absurd (before_mem h).1 (by simp [run])
      · rintro ⟨h, _⟩; exact h.elim⟩
  | .set x b :: h => by
    obtain ⟨i1, i2, i3⟩ := run_spec h
    obtain ⟨s1, s2, s3⟩ := set_spec (run h) x b i1
    refine ⟨s1, ?_, ?_⟩
    · intro m
      rw [run, step, s2, i2]; rfl
    · intro m n
      rw [run, step, s3, i3, i2]
      simp only [Active, Newer]
      constructor
      · rintro ⟨h1, h2, ⟨h3, h4⟩ | ⟨⟨h3, h4, h5, h6⟩, h7⟩⟩
        · exact ⟨.inl h3, .inr ⟨h2, h4⟩, ⟨h1, .inl h3⟩, fun e => h1 (e ▸ h3)⟩
        · exact ⟨.inr ⟨h2, h3⟩, .inr ⟨h2, h4⟩, ⟨h1, .inr h5⟩, h6⟩
      · rintro ⟨h1, h2, ⟨h3, h4⟩, h5⟩
        have hb : b = true ∧ Active h n := h2.resolve_left h3
        refine ⟨h3, hb.1, ?_⟩
        by_cases e : m = x
        · exact .inl ⟨e, hb.2⟩
        · exact .inr ⟨⟨(h1.resolve_left e).2, hb.2, h4.resolve_left e, h5⟩, e⟩
  | .release x :: h => by
    obtain ⟨i1, i2, i3⟩ := run_spec h
    refine ⟨?_, ?_, ?_⟩
    · rw [run, step, release_one]; exact i1.erase x
    · intro m
      rw [run, step, release_one, List.Nodup.mem_erase_iff i1, i2]; rfl
    · intro m n
      rw [run, step, release_one, before_erase i1, i3]
      simp only [Active, Newer]
      constructor
      · rintro ⟨h1, h2, h3, h4, h5, h6⟩; exact ⟨⟨h1, h3⟩, ⟨h2, h4⟩, h5, h6⟩
      · rintro ⟨⟨h1, h3⟩, ⟨h2, h4⟩, h5, h6⟩; exact ⟨h1, h2, h3, h4, h5, h6⟩

/-- The first element with a property. -/
theorem first_iff {l : List M} (hnd : l.Nodup) (f : M → Option V) (v : V) :
    l.findSome? f = some v ↔ ∃ m ∈ l, f m = some v ∧ ∀ n, Before l n m → f n = none := by
  induction l with
  | nil => simp
  | cons x l ih =>
    rw [List.nodup_cons] at hnd
    rw [List.findSome?_cons]
    cases hx : f x with
    | some w =>
      constructor
      · intro h
        refine ⟨x, by simp, by rw [hx]; exact h, ?_⟩
        intro n hn
        rw [before_cons] at hn
        rcases hn with ⟨_, h⟩ | h
        · exact absurd h hnd.1
        · exact absurd (before_mem h).2 hnd.1
      · rintro ⟨m, hm, hv, hfirst⟩
        rcases List.mem_cons.mp hm with rfl | hm
        · rw [hx] at hv; exact hv
        · have := hfirst x (before_cons.mpr (.inl ⟨rfl, hm⟩))
          rw [hx] at this; cases this
    | none =>
      show l.findSome? f = some v ↔ _
      rw [ih hnd.2]
      constructor
      · rintro ⟨m, hm, hv, hfirst⟩
        refine ⟨m, List.mem_cons_of_mem _ hm, hv, ?_⟩
        intro n hn
        rw [before_cons] at hn
        rcases hn with ⟨rfl, _⟩ | h
        · exact hx
        · exact hfirst n h
      · rintro ⟨m, hm, hv, hfirst⟩
        rcases List.mem_cons.mp hm with rfl | hm
        · rw [hx] at hv; cases hv
        · exact ⟨m, hm, hv, fun n hn => hfirst n (before_cons.mpr (.inr hn))⟩

end ProcsAux
open ProcsAux

/-- C50: after any history of SET PROCEDURE and RELEASE PROCEDURE the search list holds
every active module once, and of two active modules the one set more recently first. -/
theorem C50_order (h : List (Cmd M)) : (run h).Nodup ∧ (∀ m, m ∈ run h ↔ Active h m) ∧
    (∀ m n, Active h m → Active h n → m ≠ n → ((∃ a b, run h = a ++ m :: b ∧ n ∈ b) ↔ Newer h m n)) := by
  obtain ⟨h1, h2, h3⟩ := run_spec h
  refine ⟨h1, h2, fun m n hm hn hne => ?_⟩
  have := h3 m n
  constructor
  · intro hb; exact (this.mp hb).2.2.1
  · intro hb; exact this.mpr ⟨hm, hn, hb, hne⟩

-- a set, b added, a set again: a first
example : run [Cmd.set 1 true, .set 2 true, .set 1 false] = [1, 2] := by decide

/-- The function that a module provides under a name; classes do not count. -/
def provides (env : Env M K V) (key : K) (m : M) : Option V :=
  match env.attr m key, env.classes m key with
  | some (.func v), none => some v
  | _, _ => none

/-- The class that a module provides under a name. -/
def providesClass (env : Env M K V) (key : K) (m : M) : Option V :=
  match env.classes m key, env.attr m key with
  | some v, _ => some v
  | none, some (.cls v) => some v
  | none, _ => none

namespace ProcsAux

theorem find_eq (env : Env M K V) (key : K) : ∀ l : List M, findFunction env key l = l.findSome? (provides env key)
  | [] => rfl
  | m :: l => by
    rw [findFunction, List.findSome?_cons, find_eq env key l]
    unfold provides
    cases env.attr m key with
    | none => rfl
    | some a => cases hc : env.classes m key <;> cases a <;> simp

theorem class_eq (env : Env M K V) (key : K) : ∀ l : List M, getClass env key l = l.findSome? (providesClass env key)
  | [] => rfl
  | m :: l => by
    rw [getClass, List.findSome?_cons, class_eq env key l]
    unfold providesClass
    cases env.classes m key with
    | some v => rfl
    | none =>
      cases env.attr m key with
      | none => rfl
      | some a => cases a <;> rfl

end ProcsAux

/-- C50: a call runs the function of the most recently set module that provides it; functions declared
from libraries come before, and an array is read only when no module provides the function. -/
theorem C50_call (env : Env M K V) (h : List (Cmd M)) (key : K) (dll array : K → Option V) (v : V) :
    getFunction env dll array (run h) key = some v ↔
      dll key = some v ∨ (dll key = none ∧
        ((∃ m, Active h m ∧ provides env key m = some v ∧
          ∀ n, Active h n → Newer h n m → n ≠ m → provides env key n = none) ∨
        ((∀ m, Active h m → provides env key m = none) ∧ array key = some v))) := by
  obtain ⟨h1, h2, h3⟩ := run_spec h
  have key1 : (∃ m, Active h m ∧ provides env key m = some v ∧
      ∀ n, Active h n → Newer h n m → n ≠ m → provides env key n = none) ↔ (run h).findSome? (provides env key) = some v := by
    rw [first_iff h1]
    constructor
    · rintro ⟨m, hm, hv, hf⟩
      refine ⟨m, (h2 m).mpr hm, hv, fun n hn => ?_⟩
      obtain ⟨a, b, c, d⟩ := (h3 n m).mp hn
      exact hf n a c d
    · rintro ⟨m, hm, hv, hf⟩
      exact ⟨m, (h2 m).mp hm, hv, fun n hn hnew hne => hf n ((h3 n m).mpr ⟨hn, (h2 m).mp hm, hnew, hne⟩)⟩
  have key2 : (∀ m, Active h m → provides env key m = none) ↔ (run h).findSome? (provides env key) = none := by
    rw [List.findSome?_eq_none_iff]
    exact ⟨fun H m hm => H m ((h2 m).mp hm), fun H m hm => H m ((h2 m).mpr hm)⟩
  rw [key1, key2]
  unfold getFunction
  rw [find_eq]
  cases dll key with
  | some w => simp
  | none => cases (run h).findSome? (provides env key) <;> simp

example : getFunction (⟨fun m k => if k = 7 ∧ m ≠ 3 then some (.func (100 + m)) else none, fun _ _ => none⟩ : Env Nat Nat Nat)
    (fun _ => none) (fun _ => some 5) (run [Cmd.set 3 true, .set 1 true, .set 2 true]) 7 = some 101 := by decide

/-- C50: a class is that of the most recently set module that provides it. -/
theorem C50_class (env : Env M K V) (h : List (Cmd M)) (key : K) (v : V) :
    getClass env key (run h) = some v ↔
      ∃ m, Active h m ∧ providesClass env key m = some v ∧
        ∀ n, Active h n → Newer h n m → n ≠ m → providesClass env key n = none := by
  obtain ⟨h1, h2, h3⟩ := run_spec h
  rw [class_eq, first_iff h1]
  constructor
  · rintro ⟨m, hm, hv, hf⟩
    exact ⟨m, (h2 m).mp hm, hv, fun n hn hnew hne => hf n ((h3 n m).mpr ⟨hn, (h2 m).mp hm, hnew, hne⟩)⟩
  · rintro ⟨m, hm, hv, hf⟩
    refine ⟨m, (h2 m).mpr hm, hv, fun n hn => ?_⟩
    obtain ⟨a, b, c, d⟩ := (h3 n m).mp hn
    exact hf n a c d

/-- Two modules with a function `f`; the one set later provides it. -/
def exampleEnv : Env Nat Nat Nat := ⟨fun m k => if k = 7 then some (.func (100 + m)) else none, fun _ _ => none⟩
example : getFunction exampleEnv (fun _ => none) (fun _ => none) (run [Cmd.set 2 true, .set 1 false]) 7 = some 102 := by decide

/-- C50: releasing several modules at once releases each of them, if they are all
searched; otherwise those before the first one that is not. -/
theorem C50_release_several (modules ms : List M) (hnd : ms.Nodup) (hm : ∀ m ∈ ms, m ∈ modules) :
    releaseProcedure modules ms = (ms.foldl List.erase modules, true) := by
  induction ms generalizing modules with
  | nil => rfl
  | cons m ms ih =>
    rw [List.nodup_cons] at hnd
    rw [releaseProcedure, if_pos (hm m (by simp)), ih _ hnd.2]
    · rfl
    · intro n hn
      have hne : n ≠ m := by rintro rfl; exact hnd.1 hn
      exact (List.mem_erase_of_ne hne).mpr (hm n (List.mem_cons_of_mem _ hn))

example : releaseProcedure [4, 3, 2, 1] [3, 1] = ([4, 2], true) ∧ releaseProcedure [4, 3, 2, 1] [3, 9, 1] = ([4, 2, 1], false) := by decide

/-- C50 does not hold for the generated RELEASE PROCEDURE: whatever procedure files
have been set, the command passes names where modules are expected, raises an
exception and releases nothing. -/
theorem C50_release_fails (sets : List (String × Bool)) (n : String) (ns : List String) :
    releaseCommand (run (sets.map fun s => Cmd.set (Obj.module s.1) s.2)) (n :: ns) =
      (run (sets.map fun s => Cmd.set (Obj.module s.1) s.2), false) := by
  unfold releaseCommand
  rw [List.map_cons, releaseProcedure, if_neg]
  rw [(run_spec _).2.1]
  induction sets with
  | nil => exact id
  | cons s sets ih =>
    rintro (h | ⟨_, h⟩)
    · cases h
    · exact ih h

/-- C50 does not hold for `SET PROCEDURE TO a, b`: whatever has been set before, the modules searched are
those after `SET PROCEDURE TO a`. -/
theorem C50_several_fails (h : List (Cmd Obj)) (a : String) (others : List String) (additive : Bool) :
    ∃ l, setCommand (run h) (a :: others) additive = some l ∧
      (∀ m, m ∈ l ↔ Active (.set (.module a) additive :: h) m) ∧
      ∀ b ∈ others, b ≠ a → ¬ Active h (.module b) → Obj.module b ∉ l := by
  have hl : ∀ m, m ∈ run (.set (.module a) additive :: h) ↔ Active (.set (.module a) additive :: h) m :=
    (run_spec (.set (.module a) additive :: h)).2.1
  refine ⟨_, rfl, hl, fun b _ hne hb hm => ?_⟩
  rcases (hl _).mp hm with e | ⟨_, e⟩
  · exact hne (by injection e)
  · exact hb e

example : setCommand (run [Cmd.set (Obj.module "x") false]) ["a", "b"] true = some [.module "a", .module "x"] := by decide

end Props
