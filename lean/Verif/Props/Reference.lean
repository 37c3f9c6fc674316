import Verif.Props.Program
/-!
# C116: arguments of DO

`DO p WITH x` passes the variable itself in FoxPro: what the procedure assigns to its parameter is assigned
to `x`.  The generated code calls a function with the value of `x`.
-/
namespace Props
open Program ProgramSpec ProgramRel ProgramAux
open FoxExpr (Ex AOp FCmp Fn Plain)
open Blocks (Stmt)
open BlocksSpec hiding value
open Model (Name Val Mem Frame)
open NameSpec
open PyExpr (Tok Reads)

namespace ReferenceSpec

/-- The values of local variables of the running procedure. -/
def owned (f : FState) : List String → Option (List FVal)
  | [] => some []
  | x :: xs =>
    match f.locals.head?.bind fun s => s x with
    | some (.known v) => (owned f xs).map (v :: ·)
    | _ => none

/-- Store values in variables. -/
def storeAll : List String → List FVal → FState → FState
  | x :: xs, v :: vs, f => storeAll xs vs (f.store x (.known v))
  | _, _, f => f

/-- `DO p WITH x, ..` for different local variables of the running procedure and a procedure with
LPARAMETERS, as many as there are arguments.  Since the procedure cannot name these variables
otherwise, that a parameter is the variable means that the variable has its value afterwards. -/
def doWith (n : Nat) (call : Calls) (q : Proc) (xs : List String) (f : FState) : Out Stop × FState :=
  match owned f xs with
  | none => (.err .fault, f)
  | some vs =>
    match execs call n q.body (enter q vs f) with
    | none => (.err .bound, f)
    | some (.normal, f1) =>
      match owned f1 q.params with
      | some ws => (.normal, storeAll xs ws (leave none f1))
      | none => (.err .fault, f1)
    | some (.ret, f1) =>
      match owned f1 q.params with
      | some ws => (.normal, storeAll xs ws (leave none f1))
      | none => (.err .fault, f1)
    | some (.err .bound, f1) => (.err .bound, f1)
    | some (_, f1) => (.err .fault, f1)

end ReferenceSpec
open ReferenceSpec

namespace ReferenceAux

/-- Unless it ends in an error other than those of ERROR and THROW, the run leaves the locals of the callers as they
were. -/
def Keeps (g : List Scope) : Result → Prop
  | some (.err .fault, _) => True
  | some (.err .bound, _) => True
  | some (_, f) => f.locals.tail = g
  | none => True

def CallsKeep (call : Calls) : Prop := ∀ p vs f, match call p vs f with
  | (.err .fault, _) => True
  | (.err .bound, _) => True
  | (_, f1) => f1.locals = f.locals

variable {g : List Scope}

theorem keeps_andThen {r : Result} {k : FState → Result} (h : Keeps g r) (hk : ∀ f, f.locals.tail = g → Keeps g (k f)) :
    Keeps g (andThen r k) := by
  match r, h with
  | none, _ => trivial
  | some (.normal, f), h => exact hk f h
  | some (.exit, f), h => exact h
  | some (.loop, f), h => exact h
  | some (.ret, f), h => exact h
  | some (.err e, f), h => exact h

theorem create_tail (x : String) (c : Cell) (ss : List Scope) : (create x c ss).tail = ss.tail := by cases ss <;> rfl

theorem store_tail (f : FState) (x : String) (c : Cell) : (f.store x c).locals.tail = f.locals.tail := by
  unfold FState.store
  split
  · exact create_tail x c _
  · split <;> rfl

theorem keeps_failure {f : FState} (b : Bool) (h : f.locals.tail = g) : Keeps g (some (.err (ProgramSpec.failure b), f)) := by
  cases b
  · trivial
  · exact h

theorem cond_cases (c : Ex) (f : FState) :
    (∃ x, ProgramSpec.cond c f = (.error (ProgramSpec.failure x), f)) ∨ ∃ b, ProgramSpec.cond c f = (.ok b, f) := by
  unfold ProgramSpec.cond
  split
  · exact .inr ⟨_, rfl⟩
  · exact .inl ⟨false, rfl⟩
  · exact .inl ⟨_, rfl⟩

theorem when_cases (c : Ex) (f : FState) :
    ProgramSpec.condWhen c f = (.error .fault, f) ∨ ∃ b, ProgramSpec.condWhen c f = (.ok b, f) := by
  unfold ProgramSpec.condWhen
  split
  · exact .inr ⟨_, rfl⟩
  · exact .inl rfl

theorem number_cases (c : Ex) (f : FState) : number c f = (.error .fault, f) ∨ ∃ i, number c f = (.ok i, f) := by
  unfold number
  split
  · exact .inr ⟨_, rfl⟩
  · exact .inl rfl

theorem startNumber_cases (c : Ex) (f : FState) :
    (∃ e, startNumber c f = (.error (failure e), f)) ∨ ∃ i, startNumber c f = (.ok i, f) := by
  unfold startNumber
  split
  · exact .inr ⟨_, rfl⟩
  · exact .inl ⟨false, rfl⟩
  · exact .inl ⟨_, rfl⟩

theorem keeps_branch {c : Ex} {f : FState} {t e : FState → Result} (ht : Keeps g (t f)) (hf : f.locals.tail = g) (he : Keeps g (e f)) :
    Keeps g (branch (ProgramSpec.cond c f) t e) := by
  rcases cond_cases c f with ⟨x, h⟩ | ⟨b, h⟩
  · rw [h]; exact keeps_failure x hf
  · rw [h]
    cases b with
    | true => exact ht
    | false => exact he

theorem keeps_when {c : Ex} {f : FState} {t e : FState → Result} (ht : Keeps g (t f)) (he : Keeps g (e f)) :
    Keeps g (branch (ProgramSpec.condWhen c f) t e) := by
  rcases when_cases c f with h | ⟨b, h⟩
  · rw [h]; trivial
  · rw [h]
    cases b with
    | true => exact ht
    | false => exact he

theorem keeps_repeat {c : Ex} {b : FState → Result} (hb : ∀ f, f.locals.tail = g → Keeps g (b f)) (n : Nat) :
    ∀ f, f.locals.tail = g → Keeps g (repeatLoop (ProgramSpec.cond c) b n f) := by
  induction n with
  | zero => intro f _; trivial
  | succ n ih =>
    intro f h
    simp only [repeatLoop]
    rcases cond_cases c f with ⟨x, hc⟩ | ⟨v, hc⟩
    · rw [hc]; exact keeps_failure x h
    rw [hc]
    cases v with
    | false => exact h
    | true =>
      have hk := hb f h
      simp only
      revert hk
      generalize b f = r
      intro hk
      match r, hk with
      | none, _ => trivial
      | some (.normal, f), h => exact ih f h
      | some (.loop, f), h => exact ih f h
      | some (.exit, f), h => exact h
      | some (.ret, f), h => exact h
      | some (.err e, f), h => exact h

theorem keeps_for {x : String} {b : FState → Result} (hb : ∀ f, f.locals.tail = g → Keeps g (b f)) (is : List Int) :
    ∀ f, f.locals.tail = g → Keeps g (forLoop b x is f) := by
  induction is with
  | nil =>
    intro f h
    simp only [forLoop]
    split
    · trivial
    · exact (store_tail f x _).trans h
  | cons i is ih =>
    intro f h
    have hk := hb (f.store x (.known (.num i))) ((store_tail f x _).trans h)
    simp only [forLoop]
    revert hk
    generalize b (f.store x (.known (.num i))) = r
    intro hk
    match r, hk with
    | none, _ => trivial
    | some (.normal, f), h =>
      simp only
      split
      · exact ih f h
      · trivial
    | some (.loop, f), h =>
      simp only
      split
      · exact ih f h
      · trivial
    | some (.exit, f), h => exact h
    | some (.ret, f), h => exact h
    | some (.err e, f), h => exact h

theorem publics_locals {xs : List String} : ∀ {f f' : FState}, publics xs f = some f' → f'.locals = f.locals := by
  induction xs with
  | nil => intro f f' h; simp only [publics, Option.some.injEq] at h; rw [h]
  | cons x xs ih =>
    intro f f' h
    simp only [publics] at h
    split at h
    · exact (ih h).trans rfl
    · cases h

theorem keeps_callStmt {call : Calls} (hc : CallsKeep call) (x : Option String) (p : String) (args : List Ex) {f : FState}
    (h : f.locals.tail = g) : Keeps g (some (callStmt call x p args f)) := by
  unfold callStmt
  split
  · exact keeps_failure _ h
  · rename_i vs _
    have hk := hc p vs f
    revert hk
    generalize call p vs f = r
    intro hk
    match r, hk with
    | (.err .fault, f1), _ => trivial
    | (.err .bound, f1), _ => trivial
    | (.err .thrown, f1), hk => exact (congrArg List.tail hk).trans h
    | (.exit, f1), hk => exact (congrArg List.tail hk).trans h
    | (.loop, f1), hk => exact (congrArg List.tail hk).trans h
    | (.ret, f1), hk => exact (congrArg List.tail hk).trans h
    | (.normal, f1), hk =>
      have : f1.locals.tail = g := (congrArg List.tail hk).trans h
      simp only
      split
      · exact this
      · exact (store_tail f1 _ _).trans this
      · trivial

theorem storeAll_tail (v : FVal) : ∀ (xs : List String) (f : FState), (f.storeAll v xs).locals.tail = f.locals.tail
  | [], _ => rfl
  | x :: xs, f => (storeAll_tail v xs _).trans (store_tail f x _)

theorem drop_tail (f : FState) (x : String) : (f.drop x).locals.tail = f.locals.tail := by
  unfold FState.drop
  split
  · rename_i h
    cases hl : f.locals with
    | nil => rfl
    | cons s ss =>
      rw [hl] at h
      have h : (s x).isSome := h
      simp [remove, h]
  · rfl

theorem release_tail : ∀ {xs : List String} {f f' : FState}, release xs f = some f' → f'.locals.tail = f.locals.tail
  | [], f, f', h => by simp only [release, Option.some.injEq] at h; subst h; rfl
  | x :: xs, f, f', h => by
    simp only [release] at h
    split at h
    · cases h
    · exact (release_tail h).trans (drop_tail f x)

theorem keeps_simple {call : Calls} (hc : CallsKeep call) (x : Simple) {f : FState} (h : f.locals.tail = g) :
    Keeps g (some (simple call x f)) := by
  cases x with
  | assign x e =>
    simp only [simple]
    split
    · exact (store_tail f x _).trans h
    · exact keeps_failure _ h
  | store e x y xs =>
    simp only [simple]
    split
    · exact (storeAll_tail _ _ f).trans h
    · exact keeps_failure _ h
  | throw e =>
    simp only [simple]
    split
    · exact h
    · exact keeps_failure _ h
  | print es =>
    simp only [simple]
    split
    · exact h
    · trivial
  | locals xs =>
    simp only [simple]
    split
    · trivial
    · rename_i s ss hs
      rw [hs] at h
      split
      · exact h
      · trivial
  | privates xs =>
    simp only [simple]
    split
    · trivial
    · split
      · split
        · trivial
        · exact h
      · trivial
  | publics xs =>
    simp only [simple]
    split
    · rename_i f1 hf
      exact (congrArg List.tail (publics_locals hf)).trans h
    · trivial
  | release xs =>
    simp only [simple]
    split
    · rename_i f1 hf
      exact (release_tail hf).trans h
    · trivial
  | exit => exact h
  | loop => exact h
  | ret e =>
    cases e with
    | none => exact h
    | some e =>
      simp only [simple]
      split
      · exact h
      · exact keeps_failure _ h
  | call x p args => exact keeps_callStmt hc x p args h
  | doProc p args =>
    simp only [simple]
    split
    · trivial
    · exact keeps_callStmt hc none p args h

theorem keeps_finish {r : Result} {l : FState → Result} (h : Keeps g r) (hl : ∀ f, f.locals.tail = g → Keeps g (l f)) :
    Keeps g (finish r l) := by
  match r, h with
  | none, _ => trivial
  | some (.normal, f), h => exact hl f h
  | some (.exit, f), h => trivial
  | some (.loop, f), h => trivial
  | some (.ret, f), h => trivial
  | some (.err .fault, f), h => trivial
  | some (.err .bound, f), h => trivial
  | some (.err .thrown, f), h =>
    have hk := hl f h
    simp only [finish]
    revert hk
    generalize l f = r
    intro hk
    match r, hk with
    | none, _ => trivial
    | some (.normal, f), h => exact h
    | some (.exit, f), h => exact h
    | some (.loop, f), h => exact h
    | some (.ret, f), h => exact h
    | some (.err e, f), h => exact h

theorem keeps_try {r : Result} {k l : FState → Result} (h : Keeps g r) (hk : ∀ f, f.locals.tail = g → Keeps g (k f))
    (hl : ∀ f, f.locals.tail = g → Keeps g (l f)) : Keeps g (finish (handle r k) l) := by
  refine keeps_finish ?_ hl
  match r, h with
  | none, _ => trivial
  | some (.normal, f), h => exact h
  | some (.exit, f), h => exact h
  | some (.loop, f), h => exact h
  | some (.ret, f), h => exact h
  | some (.err .fault, f), h => trivial
  | some (.err .bound, f), h => trivial
  | some (.err .thrown, f), h => exact hk f h

theorem keeps_simples {call : Calls} (hc : CallsKeep call) (xs : List Simple) :
    ∀ f, f.locals.tail = g → Keeps g (simples call xs f) := by
  induction xs with
  | nil => intro f h; exact h
  | cons x xs ih => intro f h; exact keeps_andThen (keeps_simple hc x h) ih

theorem keeps_value {c : Ex} {f : FState} {k : Int → FState → Result} (hk : ∀ i, Keeps g (k i f)) :
    Keeps g (BlocksSpec.value (number c f) k) := by
  rcases number_cases c f with h | ⟨i, h⟩
  · rw [h]; trivial
  · rw [h]; exact hk i

theorem keeps_start {c : Ex} {f : FState} {k : Int → FState → Result} (hf : f.locals.tail = g) (hk : ∀ i, Keeps g (k i f)) :
    Keeps g (BlocksSpec.value (startNumber c f) k) := by
  rcases startNumber_cases c f with ⟨e, h⟩ | ⟨i, h⟩
  · rw [h]; exact keeps_failure e hf
  · rw [h]; exact hk i

mutual
theorem keeps_exec {call : Calls} (hc : CallsKeep call) (n : Nat) :
    ∀ (x : Stmt Simple Ex String) (f : FState), f.locals.tail = g → Keeps g (exec call n x f)
  | .simple ss, f, h => keeps_simples hc ss f h
  | .noise _, f, h => h
  | .ifS c body els, f, h => by
    simp only [exec]
    exact keeps_branch (keeps_execs hc n body f h) h (keeps_execOpt hc n els f h)
  | .caseS _ cases otherwise, f, h => by
    simp only [exec]
    exact keeps_execCases hc n (fun f h => keeps_execOpt hc n otherwise f h) cases f h
  | .whileS c body, f, h => by
    simp only [exec]
    exact keeps_repeat (fun f h => keeps_execs hc n body f h) n f h
  | .forS x a b step body, f, h => by
    simp only [exec]
    refine keeps_start h fun i => keeps_value fun j => ?_
    cases step with
    | none => exact keeps_for (fun f h => keeps_execs hc n body f h) _ f h
    | some c => exact keeps_value fun k => keeps_for (fun f h => keeps_execs hc n body f h) _ f h
  | .eachS _ _ _, f, h => by simp only [exec]; trivial
  | .withS _, f, h => by simp only [exec]; trivial
  | .tryS body catch_ fin, f, h => by
    simp only [exec]
    exact keeps_try (keeps_execs hc n body f h) (fun f h => keeps_execCatch hc n catch_ f h) (fun f h => keeps_execOpt hc n fin f h)
theorem keeps_execCatch {call : Calls} (hc : CallsKeep call) (n : Nat) :
    ∀ (x : Option (Option String × Option Ex × List (Stmt Simple Ex String))) (f : FState), f.locals.tail = g →
      Keeps g (execCatch call n x f)
  | none, f, h => by simp only [execCatch]; exact h
  | some (to, when_, ls), f, h => by
    simp only [execCatch]
    have key : ∀ f1 : FState, f1.locals.tail = g → Keeps g (execs call n ls f1) := fun f1 h1 => keeps_execs hc n ls f1 h1
    cases to with
    | none =>
      cases when_ with
      | none => exact key f h
      | some w => exact keeps_when (key f h) h
    | some x =>
      have h1 : (f.store x .unspecified).locals.tail = g := (store_tail f x _).trans h
      cases when_ with
      | none => exact key _ h1
      | some w => exact keeps_when (key _ h1) h1
theorem keeps_execCases {call : Calls} (hc : CallsKeep call) (n : Nat) {o : FState → Result}
    (ho : ∀ f, f.locals.tail = g → Keeps g (o f)) :
    ∀ (x : List (Ex × List (Stmt Simple Ex String))) (f : FState), f.locals.tail = g → Keeps g (execCases call n o x f)
  | [], f, h => by simp only [execCases]; exact ho f h
  | (c, ls) :: rest, f, h => by
    simp only [execCases]
    exact keeps_branch (keeps_execs hc n ls f h) h (keeps_execCases hc n ho rest f h)
theorem keeps_execOpt {call : Calls} (hc : CallsKeep call) (n : Nat) :
    ∀ (x : Option (List (Stmt Simple Ex String))) (f : FState), f.locals.tail = g → Keeps g (execOpt call n x f)
  | none, f, h => by simp only [execOpt]; exact h
  | some ls, f, h => by simp only [execOpt]; exact keeps_execs hc n ls f h
theorem keeps_execs {call : Calls} (hc : CallsKeep call) (n : Nat) :
    ∀ (x : List (Stmt Simple Ex String)) (f : FState), f.locals.tail = g → Keeps g (execs call n x f)
  | [], f, h => by simp only [execs]; exact h
  | x :: xs, f, h => by
    simp only [execs]
    exact keeps_andThen (keeps_exec hc n x f h) (fun f h => keeps_execs hc n xs f h)
end

theorem calls_keep (procs : String → Option Proc) (n k : Nat) : CallsKeep (calls procs n k) := by
  induction k with
  | zero => intro p vs f; trivial
  | succ k ih =>
    intro p vs f
    simp only [calls]
    cases procs p with
    | none => trivial
    | some q =>
      simp only [callProc]
      by_cases hlen : q.params.length < vs.length
      · rw [if_pos hlen]; trivial
      · rw [if_neg hlen]
        have h := keeps_execs (g := f.locals) ih n q.body (enter q vs f) rfl
        revert h
        generalize execs (calls procs n k) n q.body (enter q vs f) = r
        intro h
        match r, h with
        | none, _ => trivial
        | some (.normal, f1), h => exact h
        | some (.ret, f1), h => exact h
        | some (.exit, f1), h => trivial
        | some (.loop, f1), h => trivial
        | some (.err .fault, f1), h => trivial
        | some (.err .bound, f1), h => trivial
        | some (.err .thrown, f1), h => trivial

/-- The local variable of that name. -/
def own (f : FState) (x : String) : Option Cell := f.locals.head?.bind fun s => s x

theorem own_store {f : FState} {x : String} (h : (own f x).isSome) (c : Cell) (y : String) :
    own (f.store x c) y = if y = x then some c else own f y := by
  have e := (store_local (f := f) (x := x) (c := c) h).1
  unfold own at h ⊢
  rw [e]
  revert h
  generalize f.locals = fl
  intro h
  cases fl with
  | nil => cases h
  | cons l ls => rfl

theorem store_same {f : FState} {x : String} {c : Cell} (h : own f x = some c) : f.store x c = f := by
  unfold own at h
  unfold FState.store
  rw [if_pos (by rw [h]; rfl)]
  obtain ⟨locals, levels, out, result⟩ := f
  cases locals with
  | nil => cases h
  | cons l ls =>
    have : l.put x c = l := by
      funext y
      unfold Scope.put
      split
      · rename_i hy; subst hy; exact h.symm
      · rfl
    simp only [create, this]

theorem owned_cons {f : FState} {x : String} {xs : List String} {vs : List FVal} (h : owned f (x :: xs) = some vs) :
    ∃ v vs', vs = v :: vs' ∧ own f x = some (.known v) ∧ owned f xs = some vs' := by
  simp only [owned] at h
  split at h
  · rename_i v hv
    obtain ⟨vs', h1, rfl⟩ := Option.map_eq_some_iff.mp h
    exact ⟨v, vs', rfl, hv, h1⟩
  · cases h

theorem owned_length {f : FState} {xs : List String} : ∀ {vs : List FVal}, owned f xs = some vs → vs.length = xs.length := by
  induction xs with
  | nil => intro vs h; simp only [owned, Option.some.injEq] at h; subst h; rfl
  | cons x xs ih =>
    intro vs h
    obtain ⟨v, vs', rfl, _, h2⟩ := owned_cons h
    simp [ih h2]

theorem owned_values {f : FState} {xs : List String} : ∀ {vs : List FVal}, owned f xs = some vs → values f (xs.map .name) = some vs := by
  induction xs with
  | nil => intro vs h; exact h
  | cons x xs ih =>
    intro vs h
    obtain ⟨v, vs', rfl, h1, h2⟩ := owned_cons h
    have hr : f.read x = some (.known v) := by
      unfold FState.read
      unfold own at h1
      rw [h1]
    simp [values, value, hr, ih h2]

theorem owned_congr {f f' : FState} {xs : List String} (h : ∀ x ∈ xs, own f' x = own f x) : owned f' xs = owned f xs := by
  induction xs with
  | nil => rfl
  | cons x xs ih =>
    have h1 : (f'.locals.head?.bind fun s => s x) = f.locals.head?.bind fun s => s x := h x (by simp)
    simp only [owned, h1, ih fun y hy => h y (by simp [hy])]

theorem storeAll_same {xs : List String} : ∀ {vs : List FVal} {f : FState}, owned f xs = some vs → storeAll xs vs f = f := by
  induction xs with
  | nil => intro vs f h; unfold storeAll; rfl
  | cons x xs ih =>
    intro vs f h
    obtain ⟨v, vs', rfl, h1, h2⟩ := owned_cons h
    rw [storeAll, store_same h1, ih h2]

theorem storeAll_other {xs : List String} {y : String} (hy : y ∉ xs) : ∀ {ws : List FVal} {f : FState},
    (∀ x ∈ xs, (own f x).isSome) → own (storeAll xs ws f) y = own f y := by
  induction xs with
  | nil => intro ws f _; unfold storeAll; rfl
  | cons x xs ih =>
    intro ws f h
    simp only [List.mem_cons, not_or] at hy
    cases ws with
    | nil => rfl
    | cons w ws =>
      rw [storeAll, ih hy.2, own_store (h x (by simp)), if_neg hy.1]
      intro z hz
      rw [own_store (h x (by simp))]
      split
      · rfl
      · exact h z (by simp [hz])

theorem storeAll_owned {xs : List String} (hn : xs.Nodup) : ∀ {ws : List FVal} {f : FState},
    (∀ x ∈ xs, (own f x).isSome) → ws.length = xs.length → owned (storeAll xs ws f) xs = some ws := by
  induction xs with
  | nil => intro ws f _ hl; cases ws with
    | nil => rfl
    | cons w ws => simp at hl
  | cons x xs ih =>
    intro ws f h hl
    obtain ⟨h1, h2⟩ := List.nodup_cons.mp hn
    cases ws with
    | nil => simp at hl
    | cons w ws =>
      have hall : ∀ z ∈ xs, (own (f.store x (.known w)) z).isSome := by
        intro z hz
        rw [own_store (h x (by simp))]
        split
        · rfl
        · exact h z (by simp [hz])
      have e1 : own (storeAll xs ws (f.store x (.known w))) x = some (.known w) := by
        rw [storeAll_other h1 hall, own_store (h x (by simp)), if_pos rfl]
      have e2 := ih h2 hall (by simpa using hl)
      unfold own at e1
      simp only [storeAll, owned, e1, e2, Option.map_some]

theorem owned_some {f : FState} {xs : List String} : ∀ {vs : List FVal}, owned f xs = some vs → ∀ x ∈ xs, (own f x).isSome := by
  induction xs with
  | nil => intro vs _ x hx; cases hx
  | cons y xs ih =>
    intro vs h x hx
    obtain ⟨v, vs', rfl, h1, h2⟩ := owned_cons h
    rcases List.mem_cons.mp hx with rfl | hx
    · rw [h1]; rfl
    · exact ih h2 x hx

/-- What the two sides do in DO with local variables. -/
theorem both (P : String → Prop) (hP : ∀ x, P x → Usable x) (procs : String → Option Proc)
    (hok : OkProcs P procs) (funcs : String → Option PyProc) (hm : Module procs funcs) (n k d : Nat) (p : String) (q : Proc)
    (hq : procs p = some q) (xs : List String) (hl : q.params.length = xs.length)
    (s : Machine) (f f1 : FState) (h : Rel P (d + 1) s f) (vs ws : List FVal) (hv : owned f xs = some vs) (o : Out Stop)
    (ho : o = .normal ∨ o = .ret) (hr : execs (calls procs n k) n q.body (enter q vs f) = some (o, f1))
    (hw : owned f1 q.params = some ws) :
    (leave none f1).locals = f.locals ∧
    doWith n (calls procs n k) q xs f = (.normal, storeAll xs ws (leave none f1)) ∧
      ∃ s', runLine (pyCalls funcs n (k + 1)) (line (.doProc p (xs.map .name))) s = (.normal, s') ∧
        Rel P (d + 1) s' (leave none f1) := by
  have hk := keeps_execs (g := f.locals) (calls_keep procs n k) n q.body (enter q vs f) rfl
  rw [hr] at hk
  have he := callStmt_ends hP (fun p vs s f h => C115_program_partial P hP procs hok funcs hm n (k + 1) (d + 1) p vs s f h)
    h (x := none) (p := p) (args := xs.map .name) (by simp) (by
      intro e he
      obtain ⟨x, hx, rfl⟩ := List.mem_map.mp he
      obtain ⟨c, hc⟩ := Option.isSome_iff_exists.mp (owned_some hv x hx)
      exact ⟨rfl, read_used h (x := x) (c := c) (by unfold FState.read; unfold own at hc; rw [hc])⟩)
  have hlen : ¬ q.params.length < vs.length := by rw [owned_length hv]; omega
  have hcall : callStmt (calls procs n (k + 1)) none p (xs.map .name) f =
      (.normal, leave (if o = .normal then none else f1.result) f1) := by
    simp only [callStmt, owned_values hv, calls, hq, callProc, if_neg hlen, hr]
    rcases ho with rfl | rfl <;> rfl
  rw [hcall] at he
  refine ⟨?_, ?_, ?_⟩
  · rcases ho with rfl | rfl <;> exact hk
  · simp only [doWith, hv, hr]
    rcases ho with rfl | rfl <;> simp only [hw]
  · have : line (.doProc p (xs.map .name)) = .call none p ((xs.map Ex.name).map Expr.text) := rfl
    rw [this]
    generalize runLine (pyCalls funcs n (k + 1)) (.call none p ((xs.map Ex.name).map Expr.text)) s = r at he
    cases he with
    | same h => exact ⟨_, rfl, h.area, h.intact, h.free, h.locals, h.levels, h.depth, h.out, by simp [leave]⟩

end ReferenceAux
open ReferenceAux

namespace ReferenceDemo

/-- `PROCEDURE inc` with `LPARAMETERS a`, `a = a + 1`; `PROCEDURE show` with `LPARAMETERS a`, `? a + 1`. -/
def procs : String → Option Proc
  | "inc" => some ⟨false, ["a"], [.simple [.assign "a" (.bin .add (.name "a") (.int 1))]]⟩
  | "show" => some ⟨false, ["a"], [.simple [.print [.bin .add (.name "a") (.int 1)]]]⟩
  | _ => none

def used (x : String) : Prop := x ∈ ["a", "x"]

theorem usable : ∀ x, used x → Usable x := (by decide +kernel : ∀ x ∈ ["a", "x"], Usable x)

theorem ok : OkProcs used procs := by
  intro p q h
  unfold procs at h
  split at h
  · injection h with h; subst h
    refine ⟨by simp [used], by decide, ⟨?_, trivial⟩⟩
    intro x hx
    simp only [List.mem_singleton] at hx
    subst hx
    exact ⟨by simp [used], ⟨by decide +kernel, by simp [Uses, used]⟩, fun _ _ _ => ⟨_, _, rfl⟩⟩
  · injection h with h; subst h
    refine ⟨by simp [used], by decide, ⟨?_, trivial⟩⟩
    intro x hx
    simp only [List.mem_singleton] at hx
    subst hx
    intro e he
    simp only [List.mem_singleton] at he
    subst he
    exact ⟨by decide +kernel, by simp [Uses, used]⟩
  · cases h

/-- A local variable `x` is 5. -/
def before : FState := { fresh with locals := [Scope.put (Scope.put (fun _ => none) "x" (.known (.bool false))) "x" (.known (.num 5))] }

theorem before_rel (screen : Val) : ∃ s, Rel used 1 s before := by
  have h0 := start_rel used (by decide +kernel : "_screen" ∉ ["a", "x"]) screen screen (fun _ => []) []
  have h1 := simple_ends usable (call := fun _ _ f => (.err .fault, f)) (pcall := fun _ _ s => (.err .fault, s))
    (fun _ _ _ _ _ => .fault) h0 (.locals ["x"]) (by simp [OkSimple, used])
  have e1 : simple (fun _ _ f => (.err .fault, f)) (.locals ["x"]) fresh =
      (.normal, { fresh with locals := [Scope.put (fun _ => none) "x" (.known (.bool false))] }) := rfl
  rw [e1] at h1
  generalize runLine (fun _ _ s => (.err .fault, s)) (line (.locals ["x"])) (start screen screen (fun _ => []) []) = r at h1
  cases h1 with
  | same h =>
    obtain ⟨s', _, h2⟩ := store_rel usable h (x := "x") (by simp [used]) (.num 5)
    exact ⟨s', h2⟩

end ReferenceDemo

/-- C116 (partial): DO with local variables as arguments does what it does in FoxPro when the
parameters have at the end of the procedure the values that they had at its beginning.  Missing: the other runs (see
`C116_reference_fails`). -/
theorem C116_reference_partial (P : String → Prop) (hP : ∀ x, P x → Usable x) (procs : String → Option Proc)
    (hok : OkProcs P procs) (funcs : String → Option PyProc) (hm : Module procs funcs) (n k d : Nat) (p : String) (q : Proc)
    (hq : procs p = some q) (xs : List String) (hl : q.params.length = xs.length)
    (s : Machine) (f f1 : FState) (h : Rel P (d + 1) s f) (vs : List FVal) (hv : owned f xs = some vs) (o : Out Stop)
    (ho : o = .normal ∨ o = .ret) (hr : execs (calls procs n k) n q.body (enter q vs f) = some (o, f1))
    (hw : owned f1 q.params = some vs) :
    Ends P (d + 1) (doWith n (calls procs n k) q xs f)
      (runLine (pyCalls funcs n (k + 1)) (line (.doProc p (xs.map .name))) s) := by
  obtain ⟨h1, h2, s', h3, h4⟩ := both P hP procs hok funcs hm n k d p q hq xs hl s f f1 h vs vs hv o ho hr hw
  rw [h2, h3, storeAll_same (by rw [← hv]; exact owned_congr fun x _ => by unfold own; rw [h1])]
  exact .same h4

example (screen : Val) : ∃ s funcs, Ends ReferenceDemo.used 1
    (doWith 5 (calls ReferenceDemo.procs 5 0) ⟨false, ["a"], [.simple [.print [.bin .add (.name "a") (.int 1)]]]⟩ ["x"] ReferenceDemo.before)
    (runLine (pyCalls funcs 5 1) (line (.doProc "show" [.name "x"])) s) := by
  obtain ⟨s, h⟩ := ReferenceDemo.before_rel screen
  obtain ⟨funcs, hm, _⟩ := C115_module ReferenceDemo.procs
  exact ⟨s, funcs, C116_reference_partial ReferenceDemo.used ReferenceDemo.usable ReferenceDemo.procs ReferenceDemo.ok funcs hm
    5 0 0 "show" _ rfl ["x"] rfl s ReferenceDemo.before
    { enter ⟨false, ["a"], []⟩ [.num 5] ReferenceDemo.before with out := [[.num 6]] } h [.num 5] rfl .normal (.inl rfl) rfl rfl⟩

/-- C116 fails: whatever values the procedure leaves in its parameters, after DO the variables of the
generated program have the old values; in FoxPro they have those of the parameters. -/
theorem C116_reference_fails (P : String → Prop) (hP : ∀ x, P x → Usable x) (procs : String → Option Proc)
    (hok : OkProcs P procs) (funcs : String → Option PyProc) (hm : Module procs funcs) (n k d : Nat) (p : String) (q : Proc)
    (hq : procs p = some q) (xs : List String) (hx : xs.Nodup) (hl : q.params.length = xs.length)
    (s : Machine) (f f1 : FState) (h : Rel P (d + 1) s f) (vs ws : List FVal) (hv : owned f xs = some vs) (o : Out Stop)
    (ho : o = .normal ∨ o = .ret) (hr : execs (calls procs n k) n q.body (enter q vs f) = some (o, f1))
    (hw : owned f1 q.params = some ws) :
    ∃ s' f', runLine (pyCalls funcs n (k + 1)) (line (.doProc p (xs.map .name))) s = (.normal, s') ∧
      doWith n (calls procs n k) q xs f = (.normal, f') ∧
      xs.map (PyVal.name (env s'.st)) = vs.map toPy ∧ owned f' xs = some ws := by
  obtain ⟨h1, h2, s', h3, h4⟩ := both P hP procs hok funcs hm n k d p q hq xs hl s f f1 h vs ws hv o ho hr hw
  have hown : owned (leave none f1) xs = some vs := by
    rw [← hv]; exact owned_congr fun x _ => by unfold own; rw [h1]
  refine ⟨s', _, h3, h2, ?_, ?_⟩
  · clear h2 h3 hl hv hr hw hx
    induction xs generalizing vs with
    | nil => simp only [owned, Option.some.injEq] at hown; subst hown; rfl
    | cons x xs ih =>
      obtain ⟨v, vs', rfl, e1, e2⟩ := owned_cons hown
      have hread : (leave none f1).read x = some (.known v) := by
        unfold FState.read
        unfold own at e1
        rw [e1]
      rw [List.map_cons, List.map_cons, env_read hP h4 hread, ih vs' e2]
  · exact storeAll_owned hx (owned_some hown) (by rw [owned_length hw, hl])

-- after `DO inc WITH x` the variable is 5 instead of 6
example (screen : Val) : ∃ s funcs s' f', runLine (pyCalls funcs 5 1) (line (.doProc "inc" [.name "x"])) s = (.normal, s') ∧
    doWith 5 (calls ReferenceDemo.procs 5 0) ⟨false, ["a"], [.simple [.assign "a" (.bin .add (.name "a") (.int 1))]]⟩ ["x"]
      ReferenceDemo.before = (.normal, f') ∧
    ["x"].map (PyVal.name (env s'.st)) = [.int 5] ∧ owned f' ["x"] = some [.num 6] := by
  obtain ⟨s, h⟩ := ReferenceDemo.before_rel screen
  obtain ⟨funcs, hm, _⟩ := C115_module ReferenceDemo.procs
  exact ⟨s, funcs, C116_reference_fails ReferenceDemo.used ReferenceDemo.usable ReferenceDemo.procs ReferenceDemo.ok funcs hm
    5 0 0 "inc" _ rfl ["x"] (by decide) rfl s ReferenceDemo.before
    ((enter ⟨false, ["a"], []⟩ [.num 5] ReferenceDemo.before).store "a" (.known (.num 6))) h [.num 5] [.num 6] rfl .normal (.inl rfl) rfl rfl⟩

end Props
