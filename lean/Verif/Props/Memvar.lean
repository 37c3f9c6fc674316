import Verif.Lemmas.MemvarCalls
/-!
# Variables and procedure calls: properties C01-C08

`callProc P fuel d args σ` calls procedure `d` (declared with PARAMETERS or
LPARAMETERS) with `args`; it is `some` when the call ends.  `σ.abandoned` counts
the calls that were left by an exception so far.
-/
namespace Props
open Model Py Spec

/-! ## Programs used in the examples -/

/-- PROCEDURE fact(n): recursive, with a LOCAL, a PRIVATE, and RELEASE ALL. -/
def exDown : ProcDef :=
  { kind := .lparameters, params := ["n", "m"],
    body := .seq (.declare .loc ["t"] []) <| .seq (.declare .priv ["p"] []) <|
      .seq (.assign "p" (.var "n")) <|
      .seq (.ite (.var "m") (.call (some "t") "down" [.var "p", .const (.bool false)]) .skip) <|
      .seq .releaseAll (.ret .pcount) }

def exFail : ProcDef := { kind := .parameters, params := ["q"], body := .raise "boom" }

def exProcs : Procs := fun p =>
  if p = "down" then some exDown else if p = "fail" then some exFail else none

/-- A caller with a local `x`, one private `g` and a public `u`. -/
def exState : State :=
  { mem := { pub := [[("g", .num 7)], [("u", .num 1)]], loc := [[("x", .num 5)], []] },
    pcounts := [0], parameters := 0 }

/-! ## C01 -/

/-- C01, any program: the three stacks end where they started plus one level per
call that was abandoned by an exception during the call. -/
theorem C01_call_depth (P : Procs) (fuel : Nat) (d : ProcDef) (args : List Val) (σ σ' : State)
    (o : Outcome) (h : callProc P fuel d args σ = some (o, σ')) :
    ∃ k, σ'.abandoned = σ.abandoned + k ∧
      σ'.mem.pub.length = σ.mem.pub.length + k ∧
      (∃ fs, fs.length = k ∧ σ'.mem.loc = fs ++ σ.mem.loc) ∧
      (∃ ns, ns.length = k ∧ σ'.pcounts = ns ++ σ.pcounts) := by
  have hf := framed_scoper d.kind d.params (run_framed P fuel d.body) args
  obtain ⟨pre', pc', e, a1, a2, a3, a4, _⟩ := hf σ o σ' [] σ.mem.loc h
  refine ⟨pc'.length, by omega, by omega, ⟨pre', by simp at a1; omega, by rw [e]; rfl⟩, ⟨pc', rfl, a2⟩⟩

example : ∃ σ', callProc exProcs 20 exFail [.num 3] exState = some (.err (.user "boom"), σ') ∧
    σ'.abandoned = 1 ∧ σ'.mem.loc.length = 3 := ⟨_, rfl, rfl, rfl⟩

/-- C01: in programs without TRY, a call that returns leaves the number of
levels, the locals of all callers and the PCOUNT stack exactly as they were. -/
theorem C01_call_balanced (P : Procs) (hP : ∀ p d, P p = some d → NoTry d.body) (fuel : Nat)
    (d : ProcDef) (hd : NoTry d.body) (args : List Val) (σ σ' : State) (v : Val)
    (h : callProc P fuel d args σ = some (.ret v, σ')) :
    σ'.mem.pub.length = σ.mem.pub.length ∧ σ'.mem.loc = σ.mem.loc ∧ σ'.pcounts = σ.pcounts := by
  have hab : σ'.abandoned = σ.abandoned := by
    unfold callProc at h
    rcases scoper_cases d.kind d.params (run P fuel d.body) args σ with ⟨e, k, he, hb⟩ | ⟨m, _, _, he⟩
    · rw [he] at h; simp [finishCall] at h
    · rw [he] at h
      simp only [Option.map_eq_some_iff] at h
      obtain ⟨⟨o2, σ2⟩, h3, h4⟩ := h
      simp only at h4
      have h5 := finishCall_noerr (o := o2) (σ := σ2) (by rw [h4]; simp)
      have h6 := run_noTry P hP _ _ _ _ _ hd h3 h5.1
      rw [h4] at h5
      exact h5.2.trans h6
  obtain ⟨k, h1, h2, ⟨fs, h3, h4⟩, ⟨ns, h5, h6⟩⟩ := C01_call_depth P fuel d args σ σ' _ h
  have hk : k = 0 := by omega
  subst hk
  have e1 := List.length_eq_zero_iff.mp h3
  have e2 := List.length_eq_zero_iff.mp h5
  subst e1 e2
  exact ⟨h2, h4, h6⟩

/-- The same with TRY in the program, when no call was abandoned. -/
theorem C01_call_balanced_try (P : Procs) (fuel : Nat) (d : ProcDef) (args : List Val)
    (σ σ' : State) (o : Outcome) (h : callProc P fuel d args σ = some (o, σ'))
    (hab : σ'.abandoned = σ.abandoned) :
    σ'.mem.pub.length = σ.mem.pub.length ∧ σ'.mem.loc = σ.mem.loc ∧ σ'.pcounts = σ.pcounts := by
  obtain ⟨k, h1, h2, ⟨fs, h3, h4⟩, ⟨ns, h5, h6⟩⟩ := C01_call_depth P fuel d args σ σ' _ h
  have hk : k = 0 := by omega
  subst hk
  have e1 := List.length_eq_zero_iff.mp h3
  have e2 := List.length_eq_zero_iff.mp h5
  subst e1 e2
  exact ⟨h2, h4, h6⟩

/-- A recursive call with declarations and RELEASE ALL satisfies the hypotheses of C01. -/
example : ∃ σ', callProc exProcs 20 exDown [.num 3, .bool true] exState = some (.ret (.num 2), σ')
    ∧ σ'.started = [2, 2] ∧ NoTry exDown.body ∧ NoTry exFail.body := by
  refine ⟨_, rfl, rfl, ?_, ?_⟩ <;> simp [NoTry, exDown, exFail]

/-! ## C02 -/

/-- C02 (reading): what a called procedure does and returns does not depend on
the locals of its callers: with any other caller locals the run is the same,
with the callers' locals carried along untouched. -/
theorem C02_callee_cannot_see_caller_locals (P : Procs) (fuel : Nat) (d : ProcDef)
    (args : List Val) (σ σ' : State) (o : Outcome)
    (h : callProc P fuel d args σ = some (o, σ')) (otherLocals : List Frame) :
    ∃ own, σ'.mem.loc = own ++ σ.mem.loc ∧
      callProc P fuel d args (σ.withLoc otherLocals) =
        some (o, σ'.withLoc (own ++ otherLocals)) := by
  have hf := framed_scoper d.kind d.params (run_framed P fuel d.body) args
  obtain ⟨pre', pc', e, _, _, _, _, a5⟩ := hf σ o σ' [] σ.mem.loc h
  exact ⟨pre', by rw [e]; rfl, a5 otherLocals⟩

example : ∃ σ', callProc exProcs 20 exDown [.num 3, .bool true] exState = some (.ret (.num 2), σ') ∧
    ∃ σ'', callProc exProcs 20 exDown [.num 3, .bool true] (exState.withLoc [[("n", .num 9)]]) = some (.ret (.num 2), σ'') :=
  ⟨_, rfl, _, rfl⟩

/-- C02 (writing): a call that returns normally leaves every local of every
caller with the value it had. -/
theorem C02_callee_cannot_change_caller_locals (P : Procs)
    (hP : ∀ p d, P p = some d → NoTry d.body) (fuel : Nat) (d : ProcDef) (hd : NoTry d.body)
    (args : List Val) (σ σ' : State) (v : Val)
    (h : callProc P fuel d args σ = some (.ret v, σ')) : σ'.mem.loc = σ.mem.loc :=
  (C01_call_balanced P hP fuel d hd args σ σ' v h).2.1

/-- C02 even when the call fails: the callers' locals are below, unchanged. -/
theorem C02_callee_cannot_change_caller_locals_err (P : Procs) (fuel : Nat) (d : ProcDef)
    (args : List Val) (σ σ' : State) (o : Outcome)
    (h : callProc P fuel d args σ = some (o, σ')) : σ.mem.loc <:+ σ'.mem.loc := by
  obtain ⟨_, _, _, ⟨fs, _, h4⟩, _⟩ := C01_call_depth P fuel d args σ σ' o h
  exact ⟨fs, h4.symm⟩

example : ∃ σ', callProc exProcs 20 exDown [.num 3, .bool true] exState = some (.ret (.num 2), σ')
    ∧ σ'.mem.loc = [[("x", .num 5)], []] := ⟨_, rfl, rfl⟩

/-! ## C03 -/

/-- C03: reading a name gives what is visible, `NameError` when nothing is. -/
theorem C03_read (m : Mem) (k : Name) (hl : m.loc ≠ []) :
    m.getItem k = match visible m k with
      | some v => .ok v
      | none => .error .nameError := by
  obtain ⟨pub, loc⟩ := m
  cases loc with
  | nil => exact absurd rfl hl
  | cons f r =>
    rw [Mem.getItem_cons]
    simp only [visible, List.head?_cons, Option.bind_some]
    cases f.get k <;> rfl

example : (⟨[[("a", .num 1)], [("b", .num 3)]], [[("a", .num 0)]]⟩ : Mem).getItem "a" = .ok (.num 0) ∧
    (⟨[[("a", .num 1)], [("b", .num 3)]], [[("a", .num 0)]]⟩ : Mem).getItem "c" = .error .nameError := ⟨rfl, rfl⟩

/-- C03: after an assignment the name reads back the value and every other name
reads as before. -/
theorem C03_assign (m m' : Mem) (k : Name) (v : Val) (hl : m.loc ≠ [])
    (h : m.setItem k v = .ok m') :
    visible m' k = some v ∧ ∀ k', k' ≠ k → visible m' k' = visible m k' := by
  obtain ⟨pub, loc⟩ := m
  cases loc with
  | nil => exact absurd rfl hl
  | cons f r =>
    rw [Mem.setItem_cons] at h
    split at h
    · injection h with h
      subst h
      refine ⟨by simp [visible, Dict.get_set_self], fun k' hk => ?_⟩
      simp [visible, Dict.get_set_ne _ _ hk]
    · rename_i hf
      have hfn : f.get k = none := by simpa [Dict.has] using hf
      cases hs : Mem.setPub pub k v with
      | error e => simp [hs, Except.map] at h
      | ok p =>
        simp only [hs, Except.map] at h
        injection h with h
        subst h
        simp only [visible, List.head?_cons, Option.bind_some, hfn]
        rcases Mem.setPub_ok hs with ⟨a, g, b, rfl, ha, hg, rfl⟩ | ⟨g, b, rfl, hn, rfl⟩
        · have ha' : a.findSome? (fun f => f.get k) = none := by
            simpa [List.findSome?_eq_none_iff] using ha
          refine ⟨by simp [List.findSome?_append, ha', Dict.get_set_self], fun k' hk => ?_⟩
          cases f.get k' <;> simp [List.findSome?_append, List.findSome?_cons, Dict.get_set_ne _ _ hk]
        · refine ⟨by simp [Dict.get_set_self], fun k' hk => ?_⟩
          cases f.get k' <;> simp [List.findSome?_cons, Dict.get_set_ne _ _ hk]

example : ∃ m', (⟨[[("a", .num 1)], [("b", .num 3)]], [[]]⟩ : Mem).setItem "b" (.num 4) = .ok m' ∧ visible m' "b" = some (.num 4) ∧
    visible m' "a" = some (.num 1) := ⟨_, rfl, by decide, by decide⟩

/-- C03: assignment to a visible name changes the visible variable: a local
stays local, a private stays at its level, and the number of levels and the
names defined at each level do not change. -/
theorem C03_assign_in_place (m m' : Mem) (k : Name) (v old : Val) (hl : m.loc ≠ [])
    (hv : visible m k = some old) (h : m.setItem k v = .ok m') (k' : Name) :
    m'.loc.map (fun f => f.has k') = m.loc.map (fun f => f.has k') ∧
    m'.pub.map (fun f => f.has k') = m.pub.map (fun f => f.has k') := by
  obtain ⟨pub, loc⟩ := m
  cases loc with
  | nil => exact absurd rfl hl
  | cons f r =>
    rw [Mem.setItem_cons] at h
    split at h
    · rename_i hf
      injection h with h
      subst h
      refine ⟨?_, rfl⟩
      simp only [List.map_cons, Dict.has_set]
      by_cases hk : k' = k
      · subst hk; simp [hf]
      · simp [hk]
    · rename_i hf
      have hfn : f.get k = none := by simpa [Dict.has] using hf
      cases hs : Mem.setPub pub k v with
      | error e => simp [hs, Except.map] at h
      | ok p =>
        simp only [hs, Except.map] at h
        injection h with h
        subst h
        refine ⟨rfl, ?_⟩
        simp only [visible, List.head?_cons, Option.bind_some, hfn] at hv
        rcases Mem.setPub_ok hs with ⟨a, g, b, rfl, ha, hg, rfl⟩ | ⟨g, b, rfl, hn, rfl⟩
        · simp only [List.map_append, List.map_cons, Dict.has_set]
          by_cases hk : k' = k
          · subst hk; simp [hg]
          · simp [hk]
        · have : (g :: b).findSome? (fun f => f.get k) = none := by
            simpa [List.findSome?_eq_none_iff] using hn
          rw [this] at hv; simp at hv

example : visible (⟨[[("a", .num 1)], [("b", .num 3)]], [[]]⟩ : Mem) "b" = some (.num 3) ∧
    (⟨[[("a", .num 1)], [("b", .num 3)]], [[]]⟩ : Mem).setItem "b" (.num 4) = .ok ⟨[[("a", .num 1)], [("b", .num 4)]], [[]]⟩ := ⟨by decide, rfl⟩

/-- C03: assignment to a name that is not visible creates a private of the
running procedure, and nothing else changes. -/
theorem C03_assign_new (p : Frame) (ps : List Frame) (l : Frame) (ls : List Frame) (k : Name)
    (v : Val) (hv : visible ⟨p :: ps, l :: ls⟩ k = none) :
    Mem.setItem ⟨p :: ps, l :: ls⟩ k v = .ok ⟨p.set k v :: ps, l :: ls⟩ := by
  simp only [visible, List.head?_cons, Option.bind_some] at hv
  split at hv
  · simp at hv
  · rename_i hl
    rw [Mem.setItem_cons]
    simp only [Dict.has, hl]
    have : Mem.findPub k (p :: ps) = none := by
      cases hf : Mem.findPub k (p :: ps) with
      | none => rfl
      | some i =>
        obtain ⟨a, f, b, e, _, _, h2⟩ := Mem.findPub_some hf
        have h3 := List.findSome?_eq_none_iff.mp hv f (by rw [e]; simp)
        simp [Dict.has, h3] at h2
    simp [Mem.setPub, this, Except.map]

/-- A local hides a private, which hides a public. -/
example :
    let m : Mem := ⟨[[("a", .num 1)], [("a", .num 2), ("b", .num 3)]], [[("a", .num 0)], [("c", .num 9)]]⟩
    visible m "a" = some (.num 0) ∧ visible m "b" = some (.num 3) ∧ visible m "c" = none := by
  decide

/-! ## C04 -/

/-- The state in which the body of a called procedure starts. -/
def EntryState (kind : ParamKind) (names : List Name) (args : List Val) (σ σe : State) : Prop :=
  (∀ i (h : i < names.length), visible σe.mem names[i] = some (args[i]?.getD (.bool false))) ∧
  (∀ k, k ∉ names → visible σe.mem k = visiblePub σ.mem k) ∧
  (kind = .lparameters → σe.mem.pub = [] :: σ.mem.pub) ∧
  (kind = .parameters → σe.mem.loc = [] :: σ.mem.loc) ∧
  σe.mem.pub.tail = σ.mem.pub ∧ σe.mem.loc.tail = σ.mem.loc ∧
  σe.pcounts = args.length :: σ.pcounts ∧ σe.parameters = args.length ∧
  σe.abandoned = σ.abandoned

/-- C04: calling a procedure that declares parameters runs its body in a state
where the i-th parameter has the i-th argument, missing ones are .F., other
names denote what they denote outside the caller's locals, and PCOUNT is the
number of arguments passed (surplus arguments included). -/
theorem C04_binding (P : Procs) (fuel : Nat) (d : ProcDef) (args : List Val) (σ : State)
    (hn : d.params.Nodup) (hargs : d.params = [] → args = []) :
    ∃ σe, EntryState d.kind d.params args σ σe ∧
      callProc P fuel d args σ = (run P fuel d.body σe).map (fun r => finishCall r.1 r.2) := by
  obtain ⟨kind, names, body⟩ := d
  simp only at hn hargs
  have hf := get_params names args hn
  simp only at hf
  obtain ⟨hf1, hf2⟩ := hf
  rcases scoper_cases kind names (run P fuel body) args σ with ⟨e, k, he, hb⟩ | ⟨m, hm, _, he⟩
  · exact absurd (hargs hb.1) hb.2.1
  · refine ⟨_, ?_, he⟩
    cases kind with
    | parameters =>
      simp only [ParamKind.scope, enter, Mem.push, Mem.add] at hm
      cases hm
      refine ⟨fun i h => ?_, fun k hk => ?_, by simp, fun _ => rfl, rfl, rfl, rfl, rfl, rfl⟩
      · simp [visible, hf1 i h]
      · simp [visible, visiblePub, hf2 k hk]
    | lparameters =>
      simp only [ParamKind.scope, enter, Mem.push, Mem.add] at hm
      cases hm
      refine ⟨fun i h => ?_, fun k hk => ?_, fun _ => rfl, by simp, rfl, rfl, rfl, rfl, rfl⟩
      · simp [visible, hf1 i h]
      · simp [visible, visiblePub, List.findSome?_cons, hf2 k hk]

/-- C04: passing arguments to a procedure that declares none is an error. -/
theorem C04_no_parameters (P : Procs) (fuel : Nat) (d : ProcDef) (a : Val) (as : List Val)
    (σ : State) (h : d.params = []) :
    ∃ σ', callProc P fuel d (a :: as) σ = some (.err .typeError, σ') := by
  simp only [callProc, scoper, h, finishCall]
  exact ⟨_, rfl⟩

example : ∃ σ', callProc exProcs 20 ⟨.lparameters, [], .skip⟩ [.num 3] exState = some (.err .typeError, σ') := ⟨_, rfl⟩

namespace MemvarAux

theorem eval_argument (σ : State) (hl : σ.mem.loc ≠ []) (e : Expr) :
    (∀ v, argument σ e = some v → evalExpr σ e = .ok v) ∧
    (argument σ e = none → ∃ x, evalExpr σ e = .error x) := by
  cases e with
  | const v => simp [argument, evalExpr]
  | var k =>
    rw [argument, evalExpr, C03_read σ.mem k hl]
    cases visible σ.mem k <;> simp
  | pcount =>
    rw [argument, evalExpr]
    cases σ.pcounts <;> simp
  | parameters => simp [argument, evalExpr]

theorem eval_arguments (σ : State) (hl : σ.mem.loc ≠ []) (args : List Expr) (vs : List Val)
    (hv : args.map (argument σ) = vs.map some) : evalArgs σ args = .ok vs := by
  induction args generalizing vs with
  | nil => cases vs with
    | nil => rfl
    | cons v vs => simp at hv
  | cons e es ih =>
    cases vs with
    | nil => simp at hv
    | cons v vs =>
      simp only [List.map_cons, List.cons.injEq] at hv
      rw [evalArgs, (eval_argument σ hl e).1 v hv.1]
      simp only [ih vs hv.2]

theorem eval_arguments_none (σ : State) (hl : σ.mem.loc ≠ []) (args : List Expr)
    (hv : ∃ e ∈ args, argument σ e = none) : ∃ x, evalArgs σ args = .error x := by
  induction args with
  | nil => simp at hv
  | cons e es ih =>
    rw [evalArgs]
    cases h : argument σ e with
    | none =>
      obtain ⟨x, hx⟩ := (eval_argument σ hl e).2 h
      exact ⟨x, by rw [hx]⟩
    | some v =>
      rw [(eval_argument σ hl e).1 v h]
      obtain ⟨e', he, hn⟩ := hv
      rcases List.mem_cons.mp he with rfl | he
      · rw [h] at hn; cases hn
      · obtain ⟨x, hx⟩ := ih ⟨e', he, hn⟩
        exact ⟨x, by simp only [hx]⟩

end MemvarAux
open MemvarAux

/-- C04: a call in a program passes the values its arguments have where it is written, in that order
(see `C04_binding`); the value returned goes to the variable of the assignment; an error of the call
is the error of the statement; and when an argument has no value nothing is called. -/
theorem C04_call (P : Procs) (n : Nat) (dest : Option Name) (p : Name) (d : ProcDef) (args : List Expr) (σ : State)
    (hp : P p = some d) (hl : σ.mem.loc ≠ []) (hg : σ.mem.pub ≠ []) :
    (∀ vs, args.map (argument σ) = vs.map some →
      (∀ v σ1, callProc P n d vs σ = some (.ret v, σ1) →
        ∃ σ2, run P (n + 1) (.call dest p args) σ = some (.done, σ2) ∧ (dest = none → σ2 = σ1) ∧
          ∀ k, dest = some k → visible σ2.mem k = some v ∧ ∀ k', k' ≠ k → visible σ2.mem k' = visible σ1.mem k') ∧
      (∀ e σ1, callProc P n d vs σ = some (.err e, σ1) → run P (n + 1) (.call dest p args) σ = some (.err e, σ1))) ∧
    ((∃ e ∈ args, argument σ e = none) → ∃ x, run P (n + 1) (.call dest p args) σ = some (.err x, σ)) := by
  refine ⟨fun vs hv => ⟨fun v σ1 h => ?_, fun e σ1 h => ?_⟩, fun hn => ?_⟩
  · obtain ⟨k, -, hpub, ⟨fs, -, hloc⟩, -⟩ := C01_call_depth P n d vs σ σ1 _ h
    have hl1 : σ1.mem.loc ≠ [] := by rw [hloc]; simp [hl]
    have hg1 : σ1.mem.pub ≠ [] := by
      intro h0; rw [h0] at hpub
      have := List.length_pos_iff.mpr hg
      simp at hpub
      omega
    rw [run, eval_arguments σ hl args vs hv]
    simp only [hp]
    unfold callProc at h
    rw [h]
    cases dest with
    | none => exact ⟨σ1, rfl, fun _ => rfl, by simp⟩
    | some k =>
      simp only [storeResult]
      cases hs : σ1.mem.setItem k v with
      | error e =>
        unfold Mem.setItem at hs
        split at hs
        · cases hs
        · split at hs
          · rename_i h0; exact absurd h0 hg1
          · cases hs
      | ok m =>
        refine ⟨_, rfl, by simp, fun k' hk => ?_⟩
        cases hk
        exact C03_assign _ _ _ _ hl1 hs
  · rw [run, eval_arguments σ hl args vs hv]
    simp only [hp]
    unfold callProc at h
    rw [h]
  · obtain ⟨x, hx⟩ := eval_arguments_none σ hl args hn
    exact ⟨x, by rw [run, hx]⟩

example : exProcs "down" = some exDown ∧
    [Expr.var "x", .const (.bool false)].map (argument exState) = [.num 5, .bool false].map some ∧
    argument exState (.var "nowhere") = none ∧
    ∃ σ1, callProc exProcs 20 exDown [.num 5, .bool false] exState = some (.ret (.num 2), σ1) :=
  ⟨rfl, rfl, rfl, _, rfl⟩

/-- C01: a call fails only if its body failed or arguments were passed to a
procedure without parameters; the clean-up itself never fails. -/
theorem C01_call_fails_iff (P : Procs) (fuel : Nat) (d : ProcDef) (args : List Val) (σ σ' : State)
    (e : Err) (h : callProc P fuel d args σ = some (.err e, σ')) :
    (d.params = [] ∧ args ≠ [] ∧ e = .typeError) ∨
    ∃ σe σ1, run P fuel d.body σe = some (.err e, σ1) ∧ σe.pcounts = args.length :: σ.pcounts := by
  unfold callProc at h
  rcases scoper_cases d.kind d.params (run P fuel d.body) args σ with ⟨e', k, he, h1, h2, h3, h4⟩ | ⟨m, hm, _, he⟩
  · rw [he] at h
    simp only [finishCall, Option.some.injEq, Prod.mk.injEq, Outcome.err.injEq] at h
    exact Or.inl ⟨h1, h2, h.1.symm.trans h3⟩
  · right
    rw [he] at h
    simp only [Option.map_eq_some_iff] at h
    obtain ⟨⟨o1, σ1⟩, h1, h2⟩ := h
    refine ⟨_, σ1, ?_, (by simp [enter] : ({ enter σ args.length args.length with mem := m } : State).pcounts = _)⟩
    rw [h1]
    simp only at h2
    have hloc : ∃ f, m.loc = f :: σ.mem.loc := by
      cases hk : d.kind <;> simp only [hk, ParamKind.scope, enter, Mem.push, Mem.add] at hm <;>
        cases hm <;> exact ⟨_, rfl⟩
    have hpub : m.pub.length = σ.mem.pub.length + 1 := by
      cases hk : d.kind <;> simp only [hk, ParamKind.scope, enter, Mem.push, Mem.add] at hm <;>
        cases hm <;> rfl
    obtain ⟨f, hf⟩ := hloc
    have h1' : run P fuel d.body (({ enter σ args.length args.length with mem := m } : State).withLoc ([f] ++ σ.mem.loc)) = some (o1, σ1) := by
      rw [← h1]; simp only [State.withLoc, List.singleton_append, ← hf]
    obtain ⟨pre', pc', e1, a1, a2, a3, a4, _⟩ := run_framed P fuel d.body _ o1 σ1 [f] _ (by simp) h1'
    simp only [enter] at a1 a2 a3 a4
    have l1 : σ1.mem.loc = pre' ++ σ.mem.loc := by rw [e1]; rfl
    have l2 : pre' ≠ [] := by
      intro c; subst c; simp at a1; omega
    have l3 : σ1.mem.pub ≠ [] := by
      intro c; rw [c] at a4; simp at a4; omega
    obtain ⟨p, ps, hp⟩ := List.exists_cons_of_ne_nil l3
    obtain ⟨g, gs, hg⟩ := List.exists_cons_of_ne_nil l2
    obtain ⟨c, cs, hc⟩ : ∃ c cs, σ1.pcounts = c :: cs := by
      rw [a2]; cases pc' <;> simp
    have hpop : σ1.mem.pop = .ok ⟨ps, gs ++ σ.mem.loc⟩ := by simp [Mem.pop, hp, l1, hg]
    cases o1 with
    | err x => simp only [finishCall, Prod.mk.injEq] at h2; rw [h2.1]
    | done => simp [finishCall, hc, hpop] at h2
    | ret v => simp [finishCall, hc, hpop] at h2

example : exDown.params.Nodup ∧ (exDown.params = [] → [Val.num 1, .bool false, .num 9] = []) := by
  decide

/-! ## C05 -/

/-- C05: wherever the body of a procedure has got to, PCOUNT() is the number of
arguments of the current call, whatever calls were made on the way (unless one
of them was abandoned by an error that was caught, see C06). -/
theorem C05_pcount (P : Procs) (fuel : Nat) (s : Stmt) (n : Nat) (σ σ1 : State) (o : Outcome)
    (hloc : σ.mem.loc ≠ []) (hn : σ.pcounts.head? = some n)
    (h : run P fuel s σ = some (o, σ1)) (hab : σ1.abandoned = σ.abandoned) :
    evalExpr σ1 .pcount = .ok (.num n) := by
  obtain ⟨f, r, hfr⟩ := List.exists_cons_of_ne_nil hloc
  have hb' : run P fuel s (σ.withLoc ([f] ++ r)) = some (o, σ1) := by
    have : σ.withLoc ([f] ++ r) = σ := by rw [List.singleton_append, ← hfr]; rfl
    rw [this]; exact h
  obtain ⟨pre', pc', e, a1, a2, a3, a4, _⟩ := run_framed P fuel s σ o σ1 [f] r (by simp) hb'
  have : pc' = [] := by apply List.length_eq_zero_iff.mp; omega
  subst this
  obtain ⟨c, cs, hc⟩ : ∃ c cs, σ.pcounts = c :: cs := by
    cases hp : σ.pcounts with
    | nil => simp [hp] at hn
    | cons c cs => exact ⟨c, cs, rfl⟩
  simp [hc] at hn
  simp [evalExpr, a2, hc, hn]

example : ∃ σ1, run exProcs 20 (.call none "down" [.const (.num 1), .const (.bool true)]) { exState with pcounts := [3] } = some (.done, σ1) ∧
    σ1.abandoned = exState.abandoned ∧ evalExpr σ1 .pcount = .ok (.num 3) := ⟨_, rfl, rfl, rfl⟩

/-- C05: PARAMETERS() is the number of arguments of the call started last. -/
theorem C05_parameters (P : Procs) (fuel : Nat) (s : Stmt) (σ σ1 : State) (o : Outcome)
    (hi : σ.started.headD 0 = σ.parameters) (h : run P fuel s σ = some (o, σ1))
    (hab : σ1.abandoned = σ.abandoned) :
    evalExpr σ1 .parameters = .ok (.num (σ1.started.headD 0 : Nat)) := by
  rw [run_parameters P fuel s σ o σ1 hi h hab]; rfl

/-- Three calls deep and back: the outer procedure still sees PCOUNT() = 2. -/
example : ∃ σ1, run exProcs 20 (.seq (.call none "down" [.const (.num 1), .const (.bool true)]) .skip)
    exState = some (.done, σ1) ∧ σ1.abandoned = exState.abandoned ∧ σ1.started.length = 2 :=
  ⟨_, rfl, rfl, rfl⟩

/-! ## C06 -/

/-- C06, what does hold: an error that escapes leaves exactly one extra level per
abandoned call, and the levels of the callers are intact underneath.  Missing:
the extra levels should have been removed. -/
theorem C06_error_leaves_levels_partial (P : Procs) (fuel : Nat) (s : Stmt) (σ σ1 : State)
    (o : Outcome) (f : Frame) (r : List Frame) (hfr : σ.mem.loc = f :: r)
    (h : run P fuel s σ = some (o, σ1)) :
    ∃ k own ns, σ1.abandoned = σ.abandoned + k ∧
      σ1.mem.pub.length = σ.mem.pub.length + k ∧
      own.length = k + 1 ∧ σ1.mem.loc = own ++ r ∧
      ns.length = k ∧ σ1.pcounts = ns ++ σ.pcounts := by
  have hb' : run P fuel s (σ.withLoc ([f] ++ r)) = some (o, σ1) := by
    have : σ.withLoc ([f] ++ r) = σ := by rw [List.singleton_append, ← hfr]; rfl
    rw [this]; exact h
  obtain ⟨pre', pc', e, a1, a2, a3, a4, _⟩ := run_framed P fuel s σ o σ1 [f] r (by simp) hb'
  exact ⟨pc'.length, pre', pc', by omega, by omega, by simp at a1; omega, by rw [e]; rfl, rfl, a2⟩

example : ∃ σ1, run exProcs 20 (.call none "fail" [.const (.num 1)]) exState
    = some (.err (.user "boom"), σ1) ∧ σ1.abandoned = 1 := ⟨_, rfl, rfl⟩

/-- C06 fails: after an error that left a called procedure was caught, the handler runs with the levels of the failed calls
still on the stack: there are more levels of variables and of PCOUNT() than before, and a local variable of the procedure that
has the TRY is not visible in its own handler, unless the procedure that failed has one of the same name. -/
theorem C06_handler_state_fails (P : Procs) (fuel : Nat) (a handler : Stmt) (σ σ1 : State) (e : Err) (f : Frame) (r : List Frame)
    (hfr : σ.mem.loc = f :: r) (h : run P fuel a σ = some (.err e, σ1)) (hab : σ1.abandoned ≠ σ.abandoned) :
    run P (fuel + 1) (.tryCatch a handler) σ = run P fuel handler σ1 ∧
    σ.mem.pub.length < σ1.mem.pub.length ∧ σ.mem.loc.length < σ1.mem.loc.length ∧ σ.pcounts.length < σ1.pcounts.length ∧
    ∀ k v, f.get k = some v → (∀ g, σ1.mem.loc.head? = some g → g.get k = none) → (∀ g ∈ σ1.mem.pub, g.get k = none) →
      visible σ.mem k = some v ∧ visible σ1.mem k = none := by
  obtain ⟨n, own, ns, h1, h2, h3, h4, h5, h6⟩ := C06_error_leaves_levels_partial P fuel a σ σ1 _ f r hfr h
  refine ⟨by simp only [run, h], by omega, ?_, ?_, ?_⟩
  · rw [h4, hfr, List.length_append, List.length_cons]; omega
  · rw [h6, List.length_append]; omega
  · intro k v hv hl hp
    constructor
    · simp [visible, hfr, hv]
    · have hn : (σ1.mem.loc.head?.bind fun f => f.get k) = none := by
        cases hh : σ1.mem.loc.head? with
        | none => rfl
        | some g => exact hl g hh
      rw [visible, hn]
      exact List.findSome?_eq_none_iff.mpr hp

example : ∃ σ1, run exProcs 19 (.call none "fail" [.const (.num 1)]) exState = some (.err (.user "boom"), σ1) ∧
    σ1.abandoned ≠ exState.abandoned ∧ visible exState.mem "x" = some (.num 5) ∧ visible σ1.mem "x" = none ∧
    evalExpr exState .pcount = .ok (.num 0) ∧ evalExpr σ1 .pcount = .ok (.num 1) :=
  ⟨_, rfl, by decide, by decide, by decide, rfl, rfl⟩

/-! ## C07 -/

/-- C07: a procedure that begins with PRIVATE k (whatever it and its callees then
do to `k`, short of RELEASE k, PUBLIC k, or the procedure itself doing RELEASE
ALL) leaves every outer variable `k` with the value it had, whether it returns
or fails; levels left behind by caught errors are on top. -/
theorem C07_private_restored (k : Name) (P : Procs)
    (hP : ∀ p d, P p = some d → KeepsName k d.body) (fuel : Nat) (d : ProcDef) (s : Stmt)
    (hs : KeepsName k s) (hn : NoReleaseAll s) (hbody : d.body = .seq (.declare .priv [k] []) s)
    (args : List Val) (σ σ' : State) (v : Val)
    (h : callProc P fuel d args σ = some (.ret v, σ')) :
    (σ'.mem.pub.drop (σ'.abandoned - σ.abandoned)).map (fun f => f.get k)
      = σ.mem.pub.map (fun f => f.get k) := by
  unfold callProc at h
  rcases scoper_cases d.kind d.params (run P fuel d.body) args σ with ⟨e', c, he, h1, h2, h3, h4⟩ | ⟨m, hm, _, he⟩
  · rw [he] at h; simp [finishCall] at h
  · rw [he] at h
    simp only [Option.map_eq_some_iff] at h
    obtain ⟨⟨o1, σ1⟩, h1, h2⟩ := h
    obtain ⟨p, hp⟩ : ∃ p, m.pub = p :: σ.mem.pub := by
      cases hk : d.kind <;> simp only [hk, ParamKind.scope, enter, Mem.push, Mem.add] at hm <;>
        cases hm <;> exact ⟨_, rfl⟩
    rw [hbody] at h1
    cases fuel with
    | zero => simp [run] at h1
    | succ n =>
      simp only [run] at h1
      cases n with
      | zero => simp [run] at h1
      | succ n =>
        simp only [run, Mem.add, hp] at h1
        have hh : Hidden k (Mem.addToScope p [k] [] :: σ.mem.pub) 0 (σ.mem.pub.map (fun f => f.get k)) :=
          ⟨[], _, σ.mem.pub, rfl, by simp [Mem.addToScope, Dict.has_set], rfl, rfl⟩
        have hk := run_keeps k P hP (n + 1) s True hs (fun _ => hn) _ o1 σ1 0 _ (Or.inr trivial)
          (by simpa [enter] using hh) h1
        obtain ⟨c1, a, f, b, e1, e2, e3, e4⟩ := hk
        simp only [enter] at c1 e4
        have hx : ∀ x, o1 ≠ .err x := by
          rintro x rfl; simp [finishCall] at h2
        have hpop : ∃ ls pc, σ' = { σ1 with mem := ⟨σ1.mem.pub.tail, ls⟩, pcounts := pc } := by
          cases o1 with
          | err x => exact absurd rfl (hx x)
          | done =>
            simp only [finishCall] at h2
            split at h2
            · rename_i hm2
              simp only [Mem.pop] at hm2
              split at hm2
              · rename_i hpu hlo; cases hm2; cases h2; exact ⟨_, _, by rw [hpu]; rfl⟩
              · simp at hm2
            · simp at h2
          | ret v =>
            simp only [finishCall] at h2
            split at h2
            · rename_i hm2
              simp only [Mem.pop] at hm2
              split at hm2
              · rename_i hpu hlo; cases hm2; cases h2; exact ⟨_, _, by rw [hpu]; rfl⟩
              · simp at hm2
            · simp at h2
        obtain ⟨ls, pc, rfl⟩ := hpop
        simp only
        rw [e1]
        cases a with
        | nil => simp at e4; simp [← e4, e3]
        | cons x a =>
          simp at e4
          have : σ1.abandoned - σ.abandoned = a.length + 1 := by omega
          rw [this]
          simp [e3]

example : KeepsName "k" (.assign "k" (.const (.num 5))) ∧ NoReleaseAll (.assign "k" (.const (.num 5))) ∧
    ∃ σ', callProc (fun _ => none) 9 ⟨.lparameters, [], .seq (.declare .priv ["k"] []) (.assign "k" (.const (.num 5)))⟩ []
      { exState with mem := ⟨[[("k", .num 1)]], [[]]⟩ } = some (.ret .null, σ') ∧ σ'.mem.pub = [[("k", .num 1)]] := by
  refine ⟨by simp [KeepsName], by simp [NoReleaseAll], _, rfl, ?_⟩
  decide

/-- Corollary without caught errors: reading `k` outside any local gives the same value. -/
theorem C07_private_value_restored (k : Name) (P : Procs)
    (hP : ∀ p d, P p = some d → KeepsName k d.body) (fuel : Nat) (d : ProcDef) (s : Stmt)
    (hs : KeepsName k s) (hn : NoReleaseAll s) (hbody : d.body = .seq (.declare .priv [k] []) s)
    (args : List Val) (σ σ' : State) (v : Val)
    (h : callProc P fuel d args σ = some (.ret v, σ')) (hab : σ'.abandoned = σ.abandoned) :
    visible σ'.mem k = visible σ.mem k := by
  have h1 := C07_private_restored k P hP fuel d s hs hn hbody args σ σ' v h
  have h2 := (C01_call_balanced_try P fuel d args σ σ' _ h hab).2.1
  rw [hab, Nat.sub_self, List.drop_zero] at h1
  have h3 : ∀ l : List Frame, l.findSome? (fun f => f.get k) = (l.map (fun f => f.get k)).findSome? id := by
    intro l; simp [List.findSome?_map]
  unfold visible
  rw [h2, h3, h3, h1]

/-- A callee that assigns the hidden private and does RELEASE ALL itself. -/
def exPriv : ProcDef :=
  { kind := .lparameters, params := [], body :=
      .seq (.declare .priv ["g"] []) <| .seq (.assign "g" (.const (.num 100))) <|
      .seq (.call none "down" [.var "g", .const (.bool true)]) (.ret (.var "g")) }

example : ∃ σ', callProc exProcs 30 exPriv [] exState = some (.ret (.num 100), σ') ∧
    visible exState.mem "g" = some (.num 7) ∧ σ'.abandoned = exState.abandoned ∧
    KeepsName "g" exDown.body ∧ NoReleaseAll exPriv.body :=
  ⟨_, rfl, by decide, rfl, by simp [exDown, KeepsName], by simp [exPriv, NoReleaseAll]⟩

/-! ## C08 -/

/-- C08: RELEASE ALL removes exactly the locals and the privates of the running
procedure, keeping every other level. -/
theorem C08_release_all (p : Frame) (ps : List Frame) (l : Frame) (ls : List Frame) :
    Mem.release ⟨p :: ps, l :: ls⟩ = .ok ⟨[] :: ps, [] :: ls⟩ := Mem.release_eq p ps l ls

example : Mem.release ⟨[[("a", .num 1)], [("a", .num 3)]], [[("b", .num 4)], [("z", .null)]]⟩ = .ok ⟨[[], [("a", .num 3)]], [[], [("z", .null)]]⟩ :=
  C08_release_all _ _ _ _

/-- C08 as seen by the program: afterwards a name denotes what the outer levels give it. -/
theorem C08_visible_after (p : Frame) (ps : List Frame) (l : Frame) (ls : List Frame) (m : Mem)
    (h : Mem.release ⟨p :: ps, l :: ls⟩ = .ok m) (k : Name) :
    visible m k = ps.findSome? (fun f => f.get k) := by
  rw [Mem.release_eq] at h
  injection h with h
  subst h
  simp [visible, List.findSome?_cons]

/-- A private hidden by a local of the same name is released too, an outer one stays. -/
example : Mem.release ⟨[[("a", .num 1), ("b", .num 2)], [("a", .num 3)]], [[("a", .num 4)], [("z", .null)]]⟩
    = .ok ⟨[[], [("a", .num 3)]], [[], [("z", .null)]]⟩ := by rfl

end Props
