import Verif.Model.ScopeFlag
/-!
# C147: a statement is converted in the same way whatever the statements before it are
-/
namespace Props
open Model.ScopeFlag

namespace ScopeFlagSpec

/-- What happens while an expression is converted, in the order of its parts. -/
inductive Event
  | plain    -- a name
  | dotted   -- a member of a name
  | error    -- a call that cannot be converted
  deriving DecidableEq

/-- The names, members and impossible calls of an expression from left to right; a call comes after its arguments. -/
def trace : Ex → List Event
  | .const _ => []
  | .name _ => [.plain]
  | .member _ _ _ => [.dotted]
  | .call _ r a => trace a ++ if r then [.error] else []
  | .comma a b => trace a ++ trace b
  | .op _ a b => trace a ++ trace b

/-- The expression cannot be converted. -/
def Impossible (e : Ex) : Prop := .error ∈ trace e

/-- The expression contains an impossible call, and no member of a name comes before it. -/
def Early (e : Ex) : Prop := ∃ p q, trace e = p ++ .error :: q ∧ .dotted ∉ p

/-- The part of a statement that is no value: names to be released, bounds of an array, the field of REPLACE. -/
def target : Stmt → Option Ex
  | .assign _ _ => none
  | .call _ => none
  | .release e => some e
  | .dimension _ e => some e
  | .replace f e => if .error ∈ trace e then none else some f

/-- A statement that disturbs the following ones. -/
def Disturbs (st : Stmt) : Prop := ∃ e, target st = some e ∧ Early e

/-- An expression of constants, plain names and possible calls. -/
def Plain (e : Ex) : Prop := ∀ v ∈ trace e, v = .plain

/-- The code with all names as Python names. -/
def bare : Ex → Code
  | .const t => .const t
  | .name n => .var false n []
  | .member n m ms => .var true n (m :: ms)
  | .call f _ a => .call f (bare a)
  | .comma a b => .comma (bare a) (bare b)
  | .op o a b => .op o (bare a) (bare b)

/-- The code with all names as FoxPro variables. -/
def right : Ex → Code
  | .const t => .const t
  | .name n => .var true n []
  | .member n m ms => .var true n (m :: ms)
  | .call f _ a => .call f (right a)
  | .comma a b => .comma (right a) (right b)
  | .op o a b => .op o (right a) (right b)

end ScopeFlagSpec

open ScopeFlagSpec

namespace ScopeFlagAux

/-- With the flag on, all names are FoxPro variables, and the flag stays on. -/
theorem visit_true (e : Ex) : visit e true = (true, if .error ∈ trace e then none else some (right e)) := by
  induction e with
  | const t => rfl
  | name n => rfl
  | member n m ms => rfl
  | call f r a ih =>
    rw [visit, ih]
    by_cases h : .error ∈ trace a
    · simp [trace, h]
    · cases r <;> simp [trace, h, right]
  | comma a b iha ihb =>
    rw [visit, iha]
    by_cases h : .error ∈ trace a
    · simp [trace, h]
    · simp only [h, if_false, ihb]
      by_cases h' : .error ∈ trace b <;> simp [trace, h, h', right]
  | op o a b iha ihb =>
    rw [visit, iha]
    by_cases h : .error ∈ trace a
    · simp [trace, h]
    · simp only [h, if_false, ihb]
      by_cases h' : .error ∈ trace b <;> simp [trace, h, h', right]

/-- A member of a name comes before the first impossible call. -/
def seen : List Event → Bool
  | [] => false
  | .error :: _ => false
  | .dotted :: _ => true
  | .plain :: t => seen t

theorem seen_append (l m : List Event) : seen (l ++ m) = (seen l || (decide (.error ∉ l) && seen m)) := by
  induction l with
  | nil => simp [seen]
  | cons x l ih => cases x <;> simp [seen, ih]

theorem early_iff (l : List Event) : (∃ p q, l = p ++ .error :: q ∧ .dotted ∉ p) ↔ (.error ∈ l ∧ seen l = false) := by
  induction l with
  | nil => simp
  | cons x l ih =>
    cases x with
    | error => simp only [seen, and_true, List.mem_cons, true_or, iff_true]; exact ⟨[], l, rfl, by simp⟩
    | dotted =>
      simp only [seen, Bool.true_eq_false, and_false, iff_false]
      rintro ⟨p, q, h, hp⟩
      cases p with
      | nil => cases h
      | cons y p => cases h; exact hp (by simp)
    | plain =>
      rw [seen, show (Event.error ∈ Event.plain :: l) ↔ Event.error ∈ l by simp, ← ih]
      constructor
      · rintro ⟨p, q, h, hp⟩
        cases p with
        | nil => cases h
        | cons y p => cases h; exact ⟨p, q, rfl, fun hm => hp (List.mem_cons_of_mem _ hm)⟩
      · rintro ⟨p, q, rfl, hp⟩
        exact ⟨.plain :: p, q, rfl, by simpa using hp⟩

theorem visit_flag (e : Ex) (s : Bool) : (visit e s).1 = (s || seen (trace e)) ∧ ((visit e s).2 = none ↔ .error ∈ trace e) := by
  induction e generalizing s with
  | const t => simp [visit, trace, seen]
  | name n => simp [visit, trace, seen]
  | member n m ms => simp [visit, trace, seen]
  | call f r a ih =>
    obtain ⟨h1, h2⟩ := ih s
    rw [visit, trace, seen_append]
    generalize hv : visit a s = v at h1 h2
    obtain ⟨s', c⟩ := v
    simp only at h1 h2
    cases c with
    | none => have := h2.1 rfl; cases r <;> simp_all [seen]
    | some c =>
      have : .error ∉ trace a := fun h => absurd (h2.2 h) (by simp)
      cases r <;> simp_all [seen]
  | comma a b iha ihb =>
    obtain ⟨h1, h2⟩ := iha s
    rw [visit, trace, seen_append]
    generalize hv : visit a s = v at h1 h2
    obtain ⟨s', c⟩ := v
    simp only at h1 h2
    cases c with
    | none => have := h2.1 rfl; simp_all
    | some c =>
      have : .error ∉ trace a := fun h => absurd (h2.2 h) (by simp)
      obtain ⟨h3, h4⟩ := ihb s'
      generalize hw : visit b s' = w at h3 h4
      obtain ⟨s'', d⟩ := w
      simp only at h3 h4
      cases d with
      | none => have := h4.1 rfl; simp_all [Bool.or_assoc]
      | some d => have : .error ∉ trace b := fun h => absurd (h4.2 h) (by simp); simp_all [Bool.or_assoc]
  | op o a b iha ihb =>
    obtain ⟨h1, h2⟩ := iha s
    rw [visit, trace, seen_append]
    generalize hv : visit a s = v at h1 h2
    obtain ⟨s', c⟩ := v
    simp only at h1 h2
    cases c with
    | none => have := h2.1 rfl; simp_all
    | some c =>
      have : .error ∉ trace a := fun h => absurd (h2.2 h) (by simp)
      obtain ⟨h3, h4⟩ := ihb s'
      generalize hw : visit b s' = w at h3 h4
      obtain ⟨s'', d⟩ := w
      simp only at h3 h4
      cases d with
      | none => have := h4.1 rfl; simp_all [Bool.or_assoc]
      | some d => have : .error ∉ trace b := fun h => absurd (h4.2 h) (by simp); simp_all [Bool.or_assoc]

theorem disabled_flag (e : Ex) : ((disabled e).1 = false ↔ Early e) ∧ ((disabled e).2 = none ↔ .error ∈ trace e) := by
  obtain ⟨h1, h2⟩ := visit_flag e false
  unfold disabled Early
  rw [early_iff]
  generalize visit e false = v at h1 h2
  obtain ⟨s, c⟩ := v
  simp only at h1 h2
  cases c with
  | none => have := h2.1 rfl; simp_all
  | some c => have : .error ∉ trace e := fun h => absurd (h2.2 h) (by simp); simp_all

theorem visit_plain (e : Ex) (h : Plain e) : visit e false = (false, some (bare e)) := by
  induction e with
  | const t => rfl
  | name n => rfl
  | member n m ms => exact absurd (h .dotted (by simp [trace])) (by simp)
  | call f r a ih =>
    have ha : Plain a := fun v hv => h v (by simp [trace, hv])
    cases r with
    | true => exact absurd (h .error (by simp [trace])) (by simp)
    | false => rw [visit, ih ha]; rfl
  | comma a b iha ihb =>
    rw [visit, iha (fun v hv => h v (by simp [trace, hv])), ]
    simp only [ihb (fun v hv => h v (by simp [trace, hv]))]
    rfl
  | op o a b iha ihb =>
    rw [visit, iha (fun v hv => h v (by simp [trace, hv])), ]
    simp only [ihb (fun v hv => h v (by simp [trace, hv]))]
    rfl

/-- The flag after a statement. -/
theorem convert_flag (st : Stmt) : ((convert st true).1 = false ↔ Disturbs st) := by
  cases st with
  | assign n e => rw [convert, visit_true]; split <;> rename_i h <;> simp_all [Disturbs, target] <;> (cases h; simp)
  | call e => rw [convert, visit_true]; split <;> rename_i h <;> simp_all [Disturbs, target] <;> (cases h; simp)
  | release e =>
    obtain ⟨h1, h2⟩ := disabled_flag e
    rw [convert]
    simp only [Disturbs, target, Option.some.injEq, exists_eq_left']
    rw [← h1]
    generalize disabled e = v
    obtain ⟨s, c⟩ := v
    cases c <;> rfl
  | dimension n e =>
    obtain ⟨h1, h2⟩ := disabled_flag e
    rw [convert]
    simp only [Disturbs, target, Option.some.injEq, exists_eq_left']
    rw [← h1]
    generalize hd : disabled e = v at h2
    obtain ⟨s, c⟩ := v
    cases c with
    | none => rfl
    | some c =>
      have hne : .error ∉ trace e := fun h => absurd (h2.2 h) (by simp)
      have hs : s = true := by
        unfold disabled at hd
        generalize visit e false = w at hd
        obtain ⟨s', c'⟩ := w
        cases c' <;> simp_all
      subst hs
      simp only [visit_true, if_neg hne]
  | replace f e =>
    rw [convert, visit_true]
    by_cases he : .error ∈ trace e
    · simp [he, Disturbs, target]
    · obtain ⟨h1, h2⟩ := disabled_flag f
      simp only [if_neg he, Disturbs, target, Option.some.injEq, exists_eq_left']
      rw [← h1]
      generalize disabled f = v
      obtain ⟨s, c⟩ := v
      cases c <;> rfl

end ScopeFlagAux

open ScopeFlagAux

/-- C147: if no statement disturbs the following ones, every statement of a program is converted as if it
were the only one. Missing: programs with a statement that does (`C147_names_fails`). -/
theorem C147_program_partial (prog : List Stmt) (h : ∀ st ∈ prog, ¬ Disturbs st) :
    program prog true = prog.map (fun st => (program [st] true).headD none) := by
  induction prog with
  | nil => rfl
  | cons st rest ih =>
    have hs : (convert st true).1 = true := by
      have := mt (convert_flag st).1 (h st (by simp))
      simpa using this
    rw [program, hs, ih (fun x hx => h x (List.mem_cons_of_mem _ hx))]
    rfl

/-- C147: alone, an assignment, a call and the bounds of an array have all names as FoxPro variables, unless they cannot be
converted. -/
theorem C147_alone (n : String) (e : Ex) :
    program [.assign n e] true = [if .error ∈ trace e then none else some [.var true n [], right e]] ∧
    program [.call e] true = [if .error ∈ trace e then none else some [right e]] ∧
    program [.dimension n e] true = [if .error ∈ trace e then none else some [.var false n [], right e]] := by
  refine ⟨?_, ?_, ?_⟩
  · rw [program, program, convert, visit_true]
    split <;> rename_i h
    · split at h <;> simp_all
    · split at h <;> simp_all
  · rw [program, program, convert, visit_true]
    split <;> rename_i h
    · split at h <;> simp_all
    · split at h <;> simp_all
  · obtain ⟨h1, h2⟩ := disabled_flag e
    rw [program, program, convert]
    generalize hd : disabled e = v at h2
    obtain ⟨s, c⟩ := v
    cases c with
    | none => rw [if_pos (h2.1 rfl)]
    | some c =>
      have hne : .error ∉ trace e := fun h => absurd (h2.2 h) (by simp)
      have hs : s = true := by
        unfold disabled at hd
        generalize visit e false = w at hd
        obtain ⟨s', c'⟩ := w
        cases c' <;> simp_all
      subst hs
      simp only [visit_true, if_neg hne]

example : program [.dimension "parts" (.op "*" (.name "n") (.const "2"))] true =
    [some [.var false "parts" [], .op "*" (.var true "n" []) (.const "2")]] :=
  (C147_alone "parts" (.op "*" (.name "n") (.const "2"))).2.2

/-- C147 fails: after a statement that disturbs the following ones, assignments of plain names, possible calls and
constants, any number of them, assign to names of Python instead of FoxPro variables, and take their values
from such names. -/
theorem C147_names_fails (st : Stmt) (hd : Disturbs st) (as : List (String × Ex)) (ha : ∀ a ∈ as, Plain a.2) :
    program (st :: as.map (fun a => .assign a.1 a.2)) true = none :: as.map (fun a => some [.var false a.1 [], bare a.2]) := by
  have hs := (convert_flag st).2 hd
  have hn : (convert st true).2 = none := by
    obtain ⟨e, he, p, q, hpq, _⟩ := hd
    have herr : .error ∈ trace e := by rw [hpq]; simp
    cases st with
    | assign n v => cases he
    | call v => cases he
    | release v =>
      have he := Option.some.inj he
      rw [← he] at herr
      have := (disabled_flag v).2.2 herr
      rw [convert]; generalize disabled v = w at this; obtain ⟨s, c⟩ := w; cases this; rfl
    | dimension n v =>
      have he := Option.some.inj he
      rw [← he] at herr
      have := (disabled_flag v).2.2 herr
      rw [convert]; generalize disabled v = w at this; obtain ⟨s, c⟩ := w; cases this; rfl
    | replace f v =>
      simp only [target] at he
      split at he
      · cases he
      · rename_i hv
        have he := Option.some.inj he
        rw [← he] at herr
        have := (disabled_flag f).2.2 herr
        rw [convert, visit_true, if_neg hv]
        simp only
        generalize disabled f = w at this; obtain ⟨s, c⟩ := w; cases this; rfl
  rw [program, hs, hn]
  congr 1
  clear hd hs hn
  induction as with
  | nil => rfl
  | cons a as ih =>
    have hp := visit_plain a.2 (ha a (by simp))
    rw [List.map_cons, program, convert, hp]
    simp only [List.map_cons]
    rw [ih (fun x hx => ha x (List.mem_cons_of_mem _ hx))]

namespace ScopeFlagDemo

/-- `DIMENSION parts[STRTRAN(c, 'a', 'b', n)]`; STRTRAN raises (C125). -/
def bad : Stmt := .dimension "parts" (.call "strtran" true (.comma (.name "c") (.comma (.const "'a'") (.comma (.const "'b'") (.name "n")))))

theorem bad_disturbs : Disturbs bad := ⟨_, rfl, [.plain, .plain], [], rfl, by decide⟩

/-- `total = total * price` -/
def good : String × Ex := ("total", .op "*" (.name "total") (.name "price"))

end ScopeFlagDemo

open ScopeFlagDemo

example : program [.assign "x" (.name "y"), .release (.name "x")] true = [some [.var true "x" [], .var true "y" []], some [.var false "x" []]] :=
  C147_program_partial _ (by
    intro st hst
    simp only [List.mem_cons, List.not_mem_nil, or_false] at hst
    rcases hst with rfl | rfl
    · rintro ⟨e, he, _⟩; cases he
    · rintro ⟨e, he, p, q, h, _⟩
      cases he
      have : Event.error ∈ [Event.plain] := by
        have h : [Event.plain] = p ++ Event.error :: q := h
        rw [h]; simp
      simp at this)

example : program [bad, .assign "total" good.2] true = [none, some [.var false "total" [], .op "*" (.var false "total" []) (.var false "price" [])]] :=
  C147_names_fails bad bad_disturbs [good] (by
    intro a ha
    rw [List.mem_singleton.1 ha]
    intro v hv
    simp [good, trace] at hv
    exact hv)

/-- C147: the first statement with a member of an object ends the disturbance: its own target and the statements behind it
have the FoxPro variables again. -/
theorem C147_member (st : Stmt) (hd : Disturbs st) (n : String) (e : Ex) (hm : .dotted ∈ trace e) (he : .error ∉ trace e)
    (rest : List Stmt) :
    ∃ c, program (st :: .assign n e :: rest) true = none :: some [.var true n [], c] :: program rest true := by
  have h0 := C147_names_fails st hd [] (by simp)
  simp only [List.map_nil, program] at h0
  have hn : (convert st true).2 = none := by simpa using h0
  have hs := (convert_flag st).2 hd
  obtain ⟨h1, h2⟩ := visit_flag e false
  have hseen : seen (trace e) = true := by
    generalize trace e = l at hm he
    induction l with
    | nil => cases hm
    | cons x l ih =>
      cases x with
      | error => exact absurd (List.mem_cons_self ..) he
      | dotted => rfl
      | plain => exact ih (by simpa using hm) (by simpa using he)
  rw [program, program, hs, hn, convert]
  generalize visit e false = w at h1 h2
  obtain ⟨s, c⟩ := w
  cases c with
  | none => exact absurd (h2.1 rfl) he
  | some c =>
    have h1 : s = (false || seen (trace e)) := h1
    rw [hseen] at h1
    subst h1
    exact ⟨c, rfl⟩

example : ∃ c, program [bad, .assign "x" (.op "*" (.name "y") (.member "form" "width" [])), .assign "z" (.name "y")] true =
    none :: some [.var true "x" [], c] :: program [.assign "z" (.name "y")] true :=
  C147_member bad bad_disturbs "x" _ (by decide) (by decide) _

/-- C147: exactly which statements disturb: with the flag on, the next assignment of a plain name is converted as
it is alone if and only if the statement before does not contain an impossible call in its target with no member before it. -/
theorem C147_next_iff (st : Stmt) (n m : String) :
    program [st, .assign n (.name m)] true = program [st] true ++ program [.assign n (.name m)] true ↔ ¬ Disturbs st := by
  rw [← convert_flag]
  simp only [program, convert, visit]
  cases (convert st true).1 <;> simp

example : program [bad, .assign "x" (.name "y")] true ≠ program [bad] true ++ program [.assign "x" (.name "y")] true :=
  fun h => (C147_next_iff bad "x" "y").1 h bad_disturbs

end Props
