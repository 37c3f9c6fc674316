import Verif.Props.Memvar
/-!
# Results of calls and RELEASE of named variables (C85, C86)

`visitReturnStmt` (vfp2py_convert_visitor.py 1907-1910) makes `return` or `return e`, that is
`.ret (.const .null)` or `.ret e` in the statement language of `Model/Memvar.lean`; a procedure whose
last line is reached returns `None`.  `visitRelease` (1419-1447) makes `del M.a, M.b`, that is `.del`
for one name after the other.
-/
namespace Props.ResultsSpec
open Model Py

/-- FoxPro: the value of a call is that of the RETURN that ended it, and .T. if there was none or
it had no expression. -/
def foxResult : Option Val → Val
  | some v => v
  | none => .bool true

/-- The values of all variables with a name that the running procedure can reach, the visible one
first: its local, and those of the levels from the innermost to the public one. -/
def layers (m : Mem) (k : Name) : List Val :=
  (m.loc.head?.bind (fun f => f.get k)).toList ++ m.pub.filterMap (fun f => f.get k)

end Props.ResultsSpec

namespace Props
open Model Py Spec ResultsSpec

namespace ResultsAux

/-- The value with which the wrapper returns for an outcome of the body. -/
def result : Outcome → Val
  | .ret v => v
  | _ => .null

/-- A procedure that has come back leaves a state in which its caller goes on. -/
theorem finish_ok {P : Procs} {n a b : Nat} {s : Stmt} {σ σ1 : State} {m : Mem} {o : Outcome}
    (f g : Frame) (hm : m = ⟨g :: σ.mem.pub, f :: σ.mem.loc⟩)
    (hr : run P n s { enter σ a b with mem := m } = some (o, σ1)) (ho : ∀ e, o ≠ .err e) :
    ∃ σ2, finishCall o σ1 = (.ret (result o), σ2) ∧
      σ.mem.pub.length ≤ σ2.mem.pub.length ∧ σ.mem.loc.length ≤ σ2.mem.loc.length := by
  have hf := run_framed P n s ({ enter σ a b with mem := m } : State) o σ1 [f] σ.mem.loc (by simp)
    (by subst hm; exact hr)
  obtain ⟨pre', pc', e, a1, a2, a3, a4, _⟩ := hf
  have hloc : σ1.mem.loc = pre' ++ σ.mem.loc := by rw [e]; rfl
  have hpub : σ1.mem.pub.length + σ.abandoned = σ.mem.pub.length + 1 + σ1.abandoned := by
    subst hm; simpa [enter] using a4
  have hpc : σ1.pcounts = pc' ++ a :: σ.pcounts := by simpa [enter] using a2
  have hlen : pre'.length + σ.abandoned = 1 + σ1.abandoned := by simpa [enter] using a1
  have hab : pc'.length + σ.abandoned = σ1.abandoned := by simpa [enter] using a3
  obtain ⟨x, pre2, rfl⟩ : ∃ x p, pre' = x :: p := by
    cases pre' with
    | nil => simp at hlen; omega
    | cons x p => exact ⟨x, p, rfl⟩
  obtain ⟨y, ps, hps⟩ : ∃ y p, σ1.mem.pub = y :: p := by
    cases h : σ1.mem.pub with
    | nil => simp [h] at hpub; omega
    | cons y p => exact ⟨y, p, rfl⟩
  obtain ⟨c, cs, hcs⟩ : ∃ c cs, σ1.pcounts = c :: cs := by rw [hpc]; cases pc' <;> simp
  have hpop : σ1.mem.pop = .ok ⟨ps, pre2 ++ σ.mem.loc⟩ := by
    unfold Mem.pop; rw [hps, hloc]; rfl
  refine ⟨{ σ1 with mem := ⟨ps, pre2 ++ σ.mem.loc⟩, pcounts := cs }, ?_, ?_, ?_⟩
  · cases o with
    | err e => exact absurd rfl (ho e)
    | done => simp only [finishCall, hcs, hpop, result]
    | ret v => simp only [finishCall, hcs, hpop, result]
  · rw [hps] at hpub; simp at hpub ⊢; omega
  · simp

theorem add_levels {σ : State} {a b : Nat} {kind : ParamKind} {names : List Name} {kw : List (Name × Val)} {m : Mem}
    (h : (enter σ a b).mem.add kind.scope names kw = .ok m) : ∃ f g, m = ⟨g :: σ.mem.pub, f :: σ.mem.loc⟩ := by
  cases kind with
  | parameters =>
    simp only [ParamKind.scope, enter, Mem.push, Mem.add, Except.ok.injEq] at h
    exact ⟨_, _, h.symm⟩
  | lparameters =>
    simp only [ParamKind.scope, enter, Mem.push, Mem.add, Except.ok.injEq] at h
    exact ⟨_, _, h.symm⟩

/-- A call that has come back stores its result. -/
theorem stored {x : Name} {v : Val} {σ : State} (h1 : σ.mem.pub ≠ []) (h2 : σ.mem.loc ≠ []) :
    ∃ σ', storeResult (some x) v σ = (.done, σ') ∧ visible σ'.mem x = some v ∧
      ∀ y, y ≠ x → visible σ'.mem y = visible σ.mem y := by
  cases hs : σ.mem.setItem x v with
  | error e =>
    unfold Mem.setItem at hs
    split at hs
    · cases hs
    · split at hs
      · contradiction
      · cases hs
  | ok m =>
    obtain ⟨h3, h4⟩ := C03_assign σ.mem m x v h2 hs
    exact ⟨{ σ with mem := m }, by simp only [storeResult, hs], h3, h4⟩

theorem call_stores {P : Procs} {n : Nat} {d : ProcDef} {x p : Name} {args : List Expr} {vs : List Val} {σ : State}
    (hP : P p = some d) (ha : evalArgs σ args = .ok vs) (hpub : σ.mem.pub ≠ []) (hloc : σ.mem.loc ≠ [])
    (hargs : d.params = [] → vs = []) {m : Mem}
    (hm : (enter σ vs.length vs.length).mem.add d.kind.scope (d.params.drop vs.length)
      ((d.params.zip vs).foldl (fun (acc : Frame) (q : Name × Val) => Dict.set acc q.1 q.2) ([] : Frame)) = .ok m)
    (hsc : scoper d.kind d.params (run P n d.body) vs σ =
      (run P n d.body { enter σ vs.length vs.length with mem := m }).map (fun r => finishCall r.1 r.2))
    {o : Outcome} {σ1 : State} (ho : ∀ e, o ≠ .err e)
    (hr : run P n d.body { enter σ vs.length vs.length with mem := m } = some (o, σ1)) :
    ∃ σ', run P (n + 1) (.call (some x) p args) σ = some (.done, σ') ∧
      visible σ'.mem x = some (result o) ∧
      ∃ σ2, callProc P n d vs σ = some (.ret (result o), σ2) ∧
        ∀ y, y ≠ x → visible σ'.mem y = visible σ2.mem y := by
  obtain ⟨f, g, hfg⟩ := add_levels hm
  obtain ⟨σ2, h1, h2, h3⟩ := finish_ok f g hfg hr ho
  have hcall : scoper d.kind d.params (run P n d.body) vs σ = some (.ret (result o), σ2) := by
    rw [hsc, hr]; simp only [Option.map_some, h1]
  have hpos1 := List.length_pos_iff.mpr hpub
  have hpos2 := List.length_pos_iff.mpr hloc
  obtain ⟨σ', h4, h5, h6⟩ := stored (x := x) (v := (result o)) (σ := σ2)
    (List.length_pos_iff.mp (by omega)) (List.length_pos_iff.mp (by omega))
  refine ⟨σ', ?_, h5, σ2, hcall, h6⟩
  simp only [run, ha, hP, hcall, h4]

end ResultsAux
open ResultsAux

/-! ## C85 -/

/-- C85 for procedures that execute a RETURN with an expression: after `x = p(args)` the variable
`x` has the value returned by the body, which ran in the entry state of C04, and every other name
means what it means after the call alone.  Missing: procedures that end otherwise (see
`C85_no_return_fails`). -/
theorem C85_value_partial (P : Procs) (n : Nat) (d : ProcDef) (x p : Name) (args : List Expr) (vs : List Val) (σ : State)
    (hP : P p = some d) (ha : evalArgs σ args = .ok vs) (hn : d.params.Nodup) (hargs : d.params = [] → vs = [])
    (hpub : σ.mem.pub ≠ []) (hloc : σ.mem.loc ≠ []) :
    ∃ σe, EntryState d.kind d.params vs σ σe ∧ ∀ v σ1, run P n d.body σe = some (.ret v, σ1) →
      ∃ σ', run P (n + 1) (.call (some x) p args) σ = some (.done, σ') ∧ visible σ'.mem x = some (foxResult (some v)) ∧
        ∃ σ2, callProc P n d vs σ = some (.ret v, σ2) ∧ ∀ y, y ≠ x → visible σ'.mem y = visible σ2.mem y := by
  obtain ⟨σe, he, hc⟩ := C04_binding P n d vs σ hn hargs
  rcases scoper_cases d.kind d.params (run P n d.body) vs σ with ⟨_, _, _, hb⟩ | ⟨m, hm, _, hsc⟩
  · exact absurd (hargs hb.1) hb.2.1
  refine ⟨{ enter σ vs.length vs.length with mem := m }, ?_, fun v σ1 hr => ?_⟩
  · -- the entry state of C04 is the same one
    have hf := get_params d.params vs hn
    simp only at hf
    obtain ⟨hf1, hf2⟩ := hf
    obtain ⟨kind, names, body⟩ := d
    cases kind with
    | parameters =>
      simp only [ParamKind.scope, enter, Mem.push, Mem.add] at hm
      cases hm
      refine ⟨fun i h => ?_, fun k hk => ?_, by simp, fun _ => rfl, rfl, rfl, rfl, rfl, rfl⟩
      · simp [visible, hf1 i h]
      · simp [visible, visiblePub, hf2 k hk]
    | lparameters =>
      simp only [ParamKind.scope, enter, Mem.push, Mem.add] at hm
      cases hm
      refine ⟨fun i h => ?_, fun k hk => ?_, fun _ => rfl, by simp, rfl, rfl, rfl, rfl, rfl⟩
      · simp [visible, hf1 i h]
      · simp [visible, visiblePub, List.findSome?_cons, hf2 k hk]
  · exact call_stores (o := .ret v) hP ha hpub hloc hargs hm hsc (by simp) hr

example : ∃ σ', run exProcs 21 (.call (some "r") "down" [.const (.num 3), .const (.bool true)]) exState = some (.done, σ') ∧
    visible σ'.mem "r" = some (.num 2) := ⟨_, rfl, by decide⟩

/-- C85 does not hold for procedures that end without RETURN, or with a RETURN without expression
(`return`): the variable becomes .NULL. instead of .T., whatever the procedure. -/
theorem C85_no_return_fails (P : Procs) (n : Nat) (d : ProcDef) (x p : Name) (args : List Expr) (vs : List Val) (σ : State)
    (hP : P p = some d) (ha : evalArgs σ args = .ok vs) (hargs : d.params = [] → vs = [])
    (hpub : σ.mem.pub ≠ []) (hloc : σ.mem.loc ≠ []) :
    ∃ σe : State, σe.pcounts = vs.length :: σ.pcounts ∧ ∀ σ1, run P n d.body σe = some (.done, σ1) ∨
        run P n d.body σe = some (.ret .null, σ1) →
      ∃ σ', run P (n + 1) (.call (some x) p args) σ = some (.done, σ') ∧ visible σ'.mem x = some .null ∧
        foxResult none ≠ .null := by
  rcases scoper_cases d.kind d.params (run P n d.body) vs σ with ⟨_, _, _, hb⟩ | ⟨m, hm, _, hsc⟩
  · exact absurd (hargs hb.1) hb.2.1
  refine ⟨{ enter σ vs.length vs.length with mem := m }, rfl, fun σ1 hr => ?_⟩
  rcases hr with hr | hr
  · obtain ⟨σ', h1, h2, _⟩ := call_stores (x := x) (o := .done) hP ha hpub hloc hargs hm hsc (by simp) hr
    exact ⟨σ', h1, h2, by simp [foxResult]⟩
  · obtain ⟨σ', h1, h2, _⟩ := call_stores (x := x) (o := .ret .null) hP ha hpub hloc hargs hm hsc (by simp) hr
    exact ⟨σ', h1, h2, by simp [foxResult]⟩

/-- C85: RETURN ends the procedure from within any nesting of sequences: what follows is not run. -/
theorem C85_return_stops (P : Procs) (n : Nat) (e : Expr) (rest : Stmt) (σ : State) (v : Val) (h : evalExpr σ e = .ok v) :
    run P (n + 2) (.seq (.ret e) rest) σ = some (.ret v, σ) := by
  simp only [run, h]

example : run exProcs 3 (.seq (.ret (.const (.num 1))) (.raise "never")) exState = some (.ret (.num 1), exState) := rfl

/-! ## C86 -/

namespace ResultsAux

theorem filterMap_none {pub : List Frame} {k : Name} (h : ∀ x ∈ pub, x.get k = none) : pub.filterMap (fun f => f.get k) = [] := by
  rw [List.filterMap_eq_nil_iff]; exact h

theorem layers_del (m : Mem) (k k' : Name) (hl : m.loc ≠ []) :
    layers (m.delItem k) k' = if k' = k then (layers m k).tail else layers m k' := by
  obtain ⟨pub, loc⟩ := m
  cases loc with
  | nil => exact absurd rfl hl
  | cons f r =>
    rw [Mem.delItem_cons]
    by_cases hf : f.has k = true
    · rw [if_pos hf]
      simp only [layers, List.head?_cons, Option.bind_some, Dict.get_del]
      by_cases hk : k' = k
      · subst hk
        obtain ⟨v, hv⟩ := Option.isSome_iff_exists.mp hf
        simp [hv]
      · simp [hk]
    · rw [if_neg hf]
      have hfn : f.get k = none := by simpa [Dict.has] using hf
      simp only [layers, List.head?_cons, Option.bind_some]
      rcases Mem.delPub_cases pub k with ⟨a, g, b, rfl, ha, hg, hd⟩ | ⟨ha, hd⟩
      · rw [hd]
        by_cases hk : k' = k
        · subst hk
          obtain ⟨v, hv⟩ := Option.isSome_iff_exists.mp hg
          simp [hfn, filterMap_none ha, hv, Dict.get_del]
        · simp only [if_neg hk, List.filterMap_append, List.filterMap_cons, Dict.get_del]
      · rw [hd]
        by_cases hk : k' = k
        · subst hk; simp [hfn, filterMap_none ha]
        · simp [hk]

theorem delItem_loc (m : Mem) (k : Name) (hl : m.loc ≠ []) : (m.delItem k).loc ≠ [] ∧ (m.delItem k).loc.tail = m.loc.tail := by
  obtain ⟨pub, loc⟩ := m
  cases loc with
  | nil => exact absurd rfl hl
  | cons f r =>
    rw [Mem.delItem_cons]
    split <;> simp

end ResultsAux

/-- RELEASE with a list of names, as the converter makes it. -/
def releaseStmt : List Name → Stmt
  | [] => .skip
  | k :: ks => .seq (.del k) (releaseStmt ks)

/-- C86: RELEASE removes, for each of its names, the visible variable and no other: the variables of
the same name hidden by it stay, all other names keep all their variables, and the locals of the
callers are untouched.  Names that are not variables do no harm. -/
theorem C86_release (P : Procs) (ks : List Name) (hk : ks.Nodup) (σ : State) (hl : σ.mem.loc ≠ []) (n : Nat) (hn : ks.length + 1 < n) :
    ∃ σ', run P n (releaseStmt ks) σ = some (.done, σ') ∧
      (∀ k, layers σ'.mem k = if k ∈ ks then (layers σ.mem k).tail else layers σ.mem k) ∧
      σ'.mem.loc.tail = σ.mem.loc.tail ∧ σ'.pcounts = σ.pcounts := by
  induction ks generalizing σ n with
  | nil =>
    obtain ⟨n, rfl⟩ : ∃ m, n = m + 1 := ⟨n - 1, by omega⟩
    exact ⟨σ, rfl, fun k => by simp, rfl, rfl⟩
  | cons x ks ih =>
    simp only [List.length_cons] at hn
    obtain ⟨n, rfl⟩ : ∃ m, n = m + 2 := ⟨n - 2, by omega⟩
    rw [List.nodup_cons] at hk
    obtain ⟨hl1, hl2⟩ := delItem_loc σ.mem x hl
    obtain ⟨σ', h1, h2, h3, h4⟩ := ih hk.2 { σ with mem := σ.mem.delItem x } hl1 (n + 1) (by omega)
    refine ⟨σ', ?_, fun k => ?_, h3.trans hl2, h4⟩
    · rw [releaseStmt, run]; simp only [run, h1]
    · rw [h2 k]
      simp only [layers_del _ _ _ hl, List.mem_cons]
      by_cases hkx : k = x
      · subst hkx; simp [hk.1]
      · simp [hkx]

example : ∃ σ', run exProcs 9 (releaseStmt ["x", "u", "nothing"]) exState = some (.done, σ') ∧
    layers exState.mem "x" = [.num 5] ∧ layers σ'.mem "x" = [] ∧ layers exState.mem "u" = [.num 1] ∧
    layers σ'.mem "u" = [] ∧ layers σ'.mem "g" = [.num 7] := ⟨_, rfl, by decide, by decide, by decide, by decide, by decide⟩

/-- C86: what is visible after RELEASE. A variable that hid no other is gone. -/
theorem C86_gone (P : Procs) (ks : List Name) (hk : ks.Nodup) (σ σ' : State) (hl : σ.mem.loc ≠ []) (n : Nat) (hn : ks.length + 1 < n)
    (h : run P n (releaseStmt ks) σ = some (.done, σ')) :
    (∀ k, k ∉ ks → visible σ'.mem k = visible σ.mem k) ∧
    (∀ k, k ∈ ks → (layers σ.mem k).length ≤ 1 → visible σ'.mem k = none ∧ evalExpr σ' (.var k) = .error .nameError) := by
  obtain ⟨σ2, h1, h2, h3, _⟩ := C86_release P ks hk σ hl n hn
  rw [h1] at h
  cases h
  have vis : ∀ m : Mem, ∀ k, visible m k = (layers m k).head? := by
    intro m k
    simp only [visible, layers]
    cases m.loc.head?.bind (fun f => f.get k) with
    | some v => rfl
    | none => simp [List.head?_filterMap]
  have hl2 : σ'.mem.loc ≠ [] := by
    intro e
    have : ∀ ks n σ, σ.mem.loc ≠ [] → run P n (releaseStmt ks) σ = some (.done, σ') → False := by
      intro ks
      induction ks with
      | nil =>
        intro n σ h0 hr
        cases n with
        | zero => simp [run] at hr
        | succ n => simp only [releaseStmt, run, Option.some.injEq, Prod.mk.injEq, true_and] at hr; subst hr; exact h0 e
      | cons x ks ih =>
        intro n σ h0 hr
        match n, hr with
        | 0, hr => simp [run] at hr
        | 1, hr => simp [releaseStmt, run] at hr
        | n + 2, hr =>
          simp only [releaseStmt, run] at hr
          exact ih (n + 1) { σ with mem := σ.mem.delItem x } (delItem_loc σ.mem x h0).1 hr
    exact this ks n σ hl h1
  refine ⟨fun k hk => ?_, fun k hk hlen => ?_⟩
  · rw [vis, vis, h2 k, if_neg hk]
  · have hv : visible σ'.mem k = none := by
      rw [vis, h2 k, if_pos hk]
      match hL : layers σ.mem k, hlen with
      | [], _ => rfl
      | [_], _ => rfl
    refine ⟨hv, ?_⟩
    simp only [evalExpr]
    rw [C03_read σ'.mem k hl2, hv]

example : (layers exState.mem "x").length ≤ 1 ∧ visible exState.mem "x" = some (.num 5) := by decide

end Props
