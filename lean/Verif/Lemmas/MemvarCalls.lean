import Verif.Lemmas.Memvar
/-! Helper lemmas: RELEASE ALL, programs without TRY, hidden privates, PARAMETERS. -/
namespace Model
open Py Spec

namespace Mem

theorem release_loc (ks : List Name) (pub : List Frame) (l : Frame) (ls : List Frame)
    (h : l.keys = ks) : ks.foldl delItem ⟨pub, l :: ls⟩ = ⟨pub, [] :: ls⟩ := by
  induction ks generalizing l with
  | nil => have := Dict.keys_eq_nil h; subst this; rfl
  | cons k ks ih =>
    have hk : l.has k = true := (Dict.has_iff_mem_keys l k).mpr (by simp [h])
    simp only [List.foldl_cons, delItem_cons, hk, if_true]
    exact ih _ (Dict.keys_del_head h)

theorem release_pub (ks : List Name) (p : Frame) (ps : List Frame) (ls : List Frame)
    (h : p.keys = ks) : ks.foldl delItem ⟨p :: ps, [] :: ls⟩ = ⟨[] :: ps, [] :: ls⟩ := by
  induction ks generalizing p with
  | nil => have := Dict.keys_eq_nil h; subst this; rfl
  | cons k ks ih =>
    have hk : p.has k = true := (Dict.has_iff_mem_keys p k).mpr (by simp [h])
    have h0 : Dict.has ([] : Frame) k = false := rfl
    simp only [List.foldl_cons, delItem_cons, h0, Bool.false_eq_true, if_false]
    have : delPub (p :: ps) k = p.del k :: ps := by simp [delPub, findPub, hk]
    rw [this]
    exact ih _ (Dict.keys_del_head h)

theorem release_eq (p : Frame) (ps : List Frame) (l : Frame) (ls : List Frame) :
    release ⟨p :: ps, l :: ls⟩ = .ok ⟨[] :: ps, [] :: ls⟩ := by
  simp only [release, List.foldl_append]
  rw [release_loc _ _ _ _ rfl, release_pub _ _ _ _ rfl]

theorem release_ok {m m' : Mem} (h : release m = .ok m') :
    ∃ p ps l ls, m = ⟨p :: ps, l :: ls⟩ ∧ m' = ⟨[] :: ps, [] :: ls⟩ := by
  obtain ⟨pub, loc⟩ := m
  cases loc with
  | nil => simp [release] at h
  | cons l ls =>
    cases pub with
    | nil => simp [release] at h
    | cons p ps =>
      rw [release_eq] at h
      injection h with h
      exact ⟨p, ps, l, ls, rfl, h.symm⟩

theorem setItem_pub {m m' : Mem} {k : Name} {v : Val} (h : m.setItem k v = .ok m') :
    m'.pub = m.pub ∨ setPub m.pub k v = .ok m'.pub := by
  obtain ⟨pub, loc⟩ := m
  cases loc with
  | cons f r =>
    rw [setItem_cons] at h
    split at h
    · injection h with h; subst h; exact Or.inl rfl
    · cases hs : setPub pub k v with
      | error e => simp [hs, Except.map] at h
      | ok p => simp only [hs, Except.map] at h; injection h with h; subst h; exact Or.inr rfl
  | nil =>
    right
    simp only [setItem, getScope, setPub] at h ⊢
    cases hf : findPub k pub with
    | some i => simp [hf, modifyAt] at h ⊢; rw [← h]
    | none =>
      simp only [hf, Option.map_none] at h ⊢
      cases pub with
      | nil => simp at h
      | cons f fs => simp at h; rw [← h]

theorem delItem_pub (m : Mem) (k : Name) :
    (m.delItem k).pub = m.pub ∨ (m.delItem k).pub = delPub m.pub k := by
  obtain ⟨pub, loc⟩ := m
  cases loc with
  | cons f r => rw [delItem_cons]; split <;> simp
  | nil =>
    right
    simp only [delItem, getScope, delPub]
    cases hf : findPub k pub <;> simp [modifyAt]

/-- Names that `_add_to_scopes` does not mention keep their value. -/
theorem get_addToScope_ne (f : Frame) (names : List Name) (kw : List (Name × Val)) (k : Name)
    (h1 : k ∉ names) (h2 : k ∉ kw.map Prod.fst) : (addToScope f names kw).get k = f.get k := by
  unfold addToScope
  have a : ∀ (kw : List (Name × Val)) (g : Frame), k ∉ kw.map Prod.fst →
      (kw.foldl (fun acc p => acc.set p.1 p.2) g).get k = g.get k := by
    intro kw
    induction kw with
    | nil => intro g _; rfl
    | cons p kw ih =>
      intro g hk
      simp only [List.map_cons, List.mem_cons, not_or] at hk
      rw [List.foldl_cons, ih _ hk.2, Dict.get_set_ne _ _ hk.1]
  have b : ∀ (names : List Name) (g : Frame), k ∉ names →
      (names.foldl (fun acc n => acc.set n (.bool false)) g).get k = g.get k := by
    intro names
    induction names with
    | nil => intro g _; rfl
    | cons n ns ih =>
      intro g hk
      simp only [List.mem_cons, not_or] at hk
      rw [List.foldl_cons, ih _ hk.2, Dict.get_set_ne _ _ hk.1]
  rw [a _ _ h2, b _ _ h1]

/-- `_add_to_scopes` never removes a name. -/
theorem has_addToScope (f : Frame) (names : List Name) (kw : List (Name × Val)) (k : Name)
    (h : f.has k = true) : (addToScope f names kw).has k = true := by
  unfold addToScope
  have a : ∀ (kw : List (Name × Val)) (g : Frame), g.has k = true →
      (kw.foldl (fun acc p => acc.set p.1 p.2) g).has k = true := by
    intro kw
    induction kw with
    | nil => intro g hg; exact hg
    | cons p kw ih => intro g hg; exact ih _ (by simp [Dict.has_set, hg])
  have b : ∀ (names : List Name) (g : Frame), g.has k = true →
      (names.foldl (fun acc n => acc.set n (.bool false)) g).has k = true := by
    intro names
    induction names with
    | nil => intro g hg; exact hg
    | cons n ns ih => intro g hg; exact ih _ (by simp [Dict.has_set, hg])
  exact a _ _ (b _ _ h)

end Mem

/-! ### Abandoned calls never decrease; without TRY a normal end has none -/

theorem finishCall_mono (o : Outcome) (σ : State) : σ.abandoned ≤ (finishCall o σ).2.abandoned := by
  cases o <;> simp only [finishCall] <;> (try split) <;> simp

theorem finishCall_noerr {o : Outcome} {σ : State} (h : ∀ x, (finishCall o σ).1 ≠ .err x) :
    (∀ x, o ≠ .err x) ∧ (finishCall o σ).2.abandoned = σ.abandoned := by
  cases o with
  | err x => exact absurd rfl (h x)
  | done =>
    refine ⟨by simp, ?_⟩
    simp only [finishCall] at h ⊢
    split at h
    · rfl
    · exact absurd rfl (h .indexError)
  | ret v =>
    refine ⟨by simp, ?_⟩
    simp only [finishCall] at h ⊢
    split at h
    · rfl
    · exact absurd rfl (h .indexError)

/-- The two ways in which a call can proceed. -/
theorem scoper_cases (kind : ParamKind) (names : List Name)
    (fn : State → Option (Outcome × State)) (args : List Val) (σ : State) :
    (∃ e n, scoper kind names fn args σ = some (finishCall (.err e) (enter σ n args.length)) ∧
      names = [] ∧ args ≠ [] ∧ e = .typeError ∧ n = 0) ∨
    (∃ m, (enter σ args.length args.length).mem.add kind.scope (names.drop args.length)
          ((names.zip args).foldl (fun (acc : Frame) (p : Name × Val) => Dict.set acc p.1 p.2) ([] : Frame)) = .ok m ∧
      (names = [] → args = []) ∧
      scoper kind names fn args σ =
        (fn { enter σ args.length args.length with mem := m }).map (fun r => finishCall r.1 r.2)) := by
  cases names with
  | nil =>
    cases args with
    | nil =>
      right
      refine ⟨(enter σ 0 0).mem, ?_, by simp, rfl⟩
      cases kind <;> rfl
    | cons a as => exact Or.inl ⟨.typeError, 0, rfl, rfl, by simp, rfl, rfl⟩
  | cons x xs =>
    cases kind with
    | parameters => exact Or.inr ⟨_, rfl, by simp, rfl⟩
    | lparameters => exact Or.inr ⟨_, rfl, by simp, rfl⟩

def Mono (fn : State → Option (Outcome × State)) : Prop :=
  ∀ σ o σ', fn σ = some (o, σ') → σ.abandoned ≤ σ'.abandoned

theorem mono_scoper {kind : ParamKind} {names : List Name}
    {fn : State → Option (Outcome × State)} (hf : Mono fn) (args : List Val) :
    Mono (scoper kind names fn args) := by
  intro σ o σ' h
  rcases scoper_cases kind names fn args σ with ⟨e, n, he, _⟩ | ⟨m, _, _, he⟩
  · rw [he] at h
    simp only [Option.some.injEq] at h
    have := finishCall_mono (.err e) (enter σ n args.length)
    rw [h] at this; exact this
  · rw [he] at h
    simp only [Option.map_eq_some_iff] at h
    obtain ⟨⟨o1, σ1⟩, h1, h2⟩ := h
    have a := hf _ _ _ h1
    have b := finishCall_mono o1 σ1
    simp only at h2
    rw [h2] at b
    exact Nat.le_trans a b

theorem storeResult_rest (dest : Option Name) (v : Val) (σ : State) :
    (storeResult dest v σ).2.abandoned = σ.abandoned ∧
    (storeResult dest v σ).2.parameters = σ.parameters ∧
    (storeResult dest v σ).2.started = σ.started := by
  cases dest with
  | none => simp [storeResult]
  | some k => simp only [storeResult]; split <;> simp

theorem run_mono (P : Procs) : ∀ n s, Mono (run P n s) := by
  intro n
  induction n with
  | zero => intro s σ o σ' h; simp [run] at h
  | succ n ih =>
    intro s σ o σ' h
    cases s with
    | skip => simp only [run] at h; cases h; exact Nat.le_refl _
    | raise msg => simp only [run] at h; cases h; exact Nat.le_refl _
    | seq a b =>
      simp only [run] at h
      split at h
      · rename_i σ1 h1
        exact Nat.le_trans (ih _ _ _ _ h1) (ih _ _ _ _ h)
      · exact ih _ _ _ _ h
    | assign k e => simp only [run] at h; repeat' split at h
                    all_goals cases h; exact Nat.le_refl _
    | declare kind names kw => simp only [run] at h; repeat' split at h
                               all_goals cases h; exact Nat.le_refl _
    | del k => simp only [run] at h; cases h; exact Nat.le_refl _
    | releaseAll => simp only [run] at h; repeat' split at h
                    all_goals cases h; exact Nat.le_refl _
    | ite c a b =>
      simp only [run] at h
      repeat' split at h
      · cases h; exact Nat.le_refl _
      · exact ih _ _ _ _ h
      · exact ih _ _ _ _ h
    | loop c a =>
      simp only [run] at h
      repeat' split at h
      · cases h; exact Nat.le_refl _
      · rename_i h1
        exact Nat.le_trans (ih _ _ _ _ h1) (ih _ _ _ _ h)
      · exact ih _ _ _ _ h
      · cases h; exact Nat.le_refl _
    | call dest p args =>
      simp only [run] at h
      repeat' split at h
      · cases h; exact Nat.le_refl _
      · cases h; exact Nat.le_refl _
      · rename_i h1
        have a := mono_scoper (ih _) _ _ _ _ h1
        simp only [Option.some.injEq] at h
        rename_i v σ1
        have b := (storeResult_rest dest v σ1).1
        rw [h] at b
        simp only at b
        rw [b]; exact a
      · exact mono_scoper (ih _) _ _ _ _ h
    | ret e => simp only [run] at h; repeat' split at h
               all_goals cases h; exact Nat.le_refl _
    | tryCatch a b =>
      simp only [run] at h
      split at h
      · rename_i h1
        exact Nat.le_trans (ih _ _ _ _ h1) (ih _ _ _ _ h)
      · exact ih _ _ _ _ h

theorem run_call_inv {P : Procs} {n : Nat} {dest : Option Name} {p : Name} {args : List Expr}
    {σ : State} {o : Outcome} {σ' : State} (h : run P (n + 1) (.call dest p args) σ = some (o, σ')) :
    (∃ x, o = .err x ∧ σ' = σ) ∨
    (∃ vs d o1 σ1, evalArgs σ args = .ok vs ∧ P p = some d ∧
      scoper d.kind d.params (run P n d.body) vs σ = some (o1, σ1) ∧
      ((∃ v, o1 = .ret v ∧ storeResult dest v σ1 = (o, σ')) ∨ (o1 = o ∧ σ1 = σ'))) := by
  simp only [run] at h
  cases h1 : evalArgs σ args with
  | error x => simp only [h1, Option.some.injEq, Prod.mk.injEq] at h; exact Or.inl ⟨x, h.1.symm, h.2.symm⟩
  | ok vs =>
    simp only [h1] at h
    cases h2 : P p with
    | none => simp only [h2, Option.some.injEq, Prod.mk.injEq] at h; exact Or.inl ⟨_, h.1.symm, h.2.symm⟩
    | some d =>
      simp only [h2] at h
      cases h3 : scoper d.kind d.params (run P n d.body) vs σ with
      | none => simp [h3] at h
      | some r =>
        obtain ⟨o1, σ1⟩ := r
        right
        refine ⟨vs, d, o1, σ1, rfl, rfl, h3, ?_⟩
        cases o1 with
        | ret v => simp only [h3, Option.some.injEq] at h; exact Or.inl ⟨v, rfl, h⟩
        | done => simp only [h3, Option.some.injEq, Prod.mk.injEq] at h; exact Or.inr h
        | err x => simp only [h3, Option.some.injEq, Prod.mk.injEq] at h; exact Or.inr h

theorem run_noTry (P : Procs) (hP : ∀ p d, P p = some d → NoTry d.body) :
    ∀ n s σ o σ', NoTry s → run P n s σ = some (o, σ') → (∀ x, o ≠ .err x) →
      σ'.abandoned = σ.abandoned := by
  intro n
  induction n with
  | zero => intro s σ o σ' _ h; simp [run] at h
  | succ n ih =>
    intro s σ o σ' hs h ho
    cases s with
    | skip => simp only [run] at h; cases h; rfl
    | raise msg => simp only [run] at h; cases h; rfl
    | seq a b =>
      simp only [run] at h
      split at h
      · rename_i σ1 h1
        rw [ih _ _ _ _ hs.2 h ho, ih _ _ _ _ hs.1 h1 (by simp)]
      · exact ih _ _ _ _ hs.1 h ho
    | assign k e => simp only [run] at h; repeat' split at h
                    all_goals cases h; rfl
    | declare kind names kw => simp only [run] at h; repeat' split at h
                               all_goals cases h; rfl
    | del k => simp only [run] at h; cases h; rfl
    | releaseAll => simp only [run] at h; repeat' split at h
                    all_goals cases h; rfl
    | ite c a b =>
      simp only [run] at h
      repeat' split at h
      · cases h; rfl
      · exact ih _ _ _ _ hs.1 h ho
      · exact ih _ _ _ _ hs.2 h ho
    | loop c a =>
      simp only [run] at h
      repeat' split at h
      · cases h; rfl
      · rename_i h1
        rw [ih (.loop c a) _ _ _ hs h ho, ih _ _ _ _ (show NoTry a from hs) h1 (by simp)]
      · exact ih _ _ _ _ (show NoTry a from hs) h ho
      · cases h; rfl
    | call dest p args =>
      rcases run_call_inv h with ⟨x, rfl, rfl⟩ | ⟨vs, d, o1, σ1, _, hd, h1, h2⟩
      · rfl
      have ho1 : ∀ x, o1 ≠ .err x := by
        rcases h2 with ⟨v, rfl, _⟩ | ⟨rfl, rfl⟩
        · simp
        · exact ho
      have key : σ1.abandoned = σ.abandoned := by
        rcases scoper_cases d.kind d.params (run P n d.body) vs σ with ⟨e, k, he, _⟩ | ⟨m, _, _, he⟩
        · rw [he] at h1; simp only [finishCall, Option.some.injEq, Prod.mk.injEq] at h1
          exact absurd h1.1.symm (ho1 e)
        · rw [he] at h1
          simp only [Option.map_eq_some_iff] at h1
          obtain ⟨⟨o2, σ2⟩, h3, h4⟩ := h1
          simp only at h4
          have h5 := finishCall_noerr (o := o2) (σ := σ2) (by rw [h4]; exact ho1)
          have h6 := ih _ _ _ _ (hP _ _ hd) h3 h5.1
          rw [h4] at h5
          simp only at h5
          rw [h5.2, h6]; rfl
      rcases h2 with ⟨v, _, h2⟩ | ⟨_, rfl⟩
      · have b := (storeResult_rest dest v σ1).1
        rw [h2] at b
        exact b.trans key
      · exact key
    | ret e => simp only [run] at h; repeat' split at h
               all_goals cases h; rfl
    | tryCatch a b => exact absurd hs (by simp [NoTry])

/-! ### PARAMETERS -/

theorem run_parameters (P : Procs) :
    ∀ n s σ o σ', σ.started.headD 0 = σ.parameters → run P n s σ = some (o, σ') →
      σ'.abandoned = σ.abandoned → σ'.started.headD 0 = σ'.parameters := by
  intro n
  induction n with
  | zero => intro s σ o σ' _ h; simp [run] at h
  | succ n ih =>
    intro s σ o σ' hi h ha
    cases s with
    | skip => simp only [run] at h; cases h; exact hi
    | raise msg => simp only [run] at h; cases h; exact hi
    | seq a b =>
      simp only [run] at h
      split at h
      · rename_i σ1 h1
        have m1 := run_mono P _ _ _ _ _ h1
        have m2 := run_mono P _ _ _ _ _ h
        exact ih _ _ _ _ (ih _ _ _ _ hi h1 (by omega)) h (by omega)
      · exact ih _ _ _ _ hi h ha
    | assign k e => simp only [run] at h; repeat' split at h
                    all_goals cases h; exact hi
    | declare kind names kw => simp only [run] at h; repeat' split at h
                               all_goals cases h; exact hi
    | del k => simp only [run] at h; cases h; exact hi
    | releaseAll => simp only [run] at h; repeat' split at h
                    all_goals cases h; exact hi
    | ite c a b =>
      simp only [run] at h
      repeat' split at h
      · cases h; exact hi
      · exact ih _ _ _ _ hi h ha
      · exact ih _ _ _ _ hi h ha
    | loop c a =>
      simp only [run] at h
      repeat' split at h
      · cases h; exact hi
      · rename_i h1
        have m1 := run_mono P _ _ _ _ _ h1
        have m2 := run_mono P _ _ _ _ _ h
        exact ih _ _ _ _ (ih _ _ _ _ hi h1 (by omega)) h (by omega)
      · exact ih _ _ _ _ hi h ha
      · cases h; exact hi
    | call dest p args =>
      rcases run_call_inv h with ⟨x, rfl, rfl⟩ | ⟨vs, d, o1, σ1, _, hd, h1, h2⟩
      · exact hi
      have key : σ1.abandoned = σ.abandoned → σ1.started.headD 0 = σ1.parameters := by
        intro hab
        rcases scoper_cases d.kind d.params (run P n d.body) vs σ with ⟨e, k, he, _⟩ | ⟨m, _, _, he⟩
        · rw [he] at h1; simp only [finishCall, Option.some.injEq, Prod.mk.injEq] at h1
          rw [← h1.2] at hab; simp [enter] at hab
        · rw [he] at h1
          simp only [Option.map_eq_some_iff] at h1
          obtain ⟨⟨o2, σ2⟩, h3, h4⟩ := h1
          have m1 := run_mono P _ _ _ _ _ h3
          have m2 := finishCall_mono o2 σ2
          simp only at h4
          rw [h4] at m2
          have h5 := ih _ _ _ _ (by simp [enter]) h3 (by simp [enter] at m1 ⊢; simp at m2; omega)
          cases o2 <;> simp only [finishCall] at h4
          · split at h4 <;> cases h4 <;> exact h5
          · split at h4 <;> cases h4 <;> exact h5
          · cases h4; exact h5
      rcases h2 with ⟨v, _, h2⟩ | ⟨_, rfl⟩
      · have b := storeResult_rest dest v σ1
        rw [h2] at b
        simp only at b
        rw [b.2.1, b.2.2]; exact key (by omega)
      · exact key ha
    | ret e => simp only [run] at h; repeat' split at h
               all_goals cases h; exact hi
    | tryCatch a b =>
      simp only [run] at h
      split at h
      · rename_i h1
        have m1 := run_mono P _ _ _ _ _ h1
        have m2 := run_mono P _ _ _ _ _ h
        exact ih _ _ _ _ (ih _ _ _ _ hi h1 (by omega)) h (by omega)
      · exact ih _ _ _ _ hi h ha

/-! ### Hidden privates -/

/-- Some level above the levels `b` has the name `k`; the levels `b` are seen
through `k` only. -/
def Hidden (k : Name) (pub : List Frame) (j : Nat) (view : List (Option Val)) : Prop :=
  ∃ a f b, pub = a ++ f :: b ∧ f.has k = true ∧ b.map (fun g => g.get k) = view ∧ a.length = j

def Keeps (k : Name) (own : Prop) (fn : State → Option (Outcome × State)) : Prop :=
  ∀ σ o σ' j view, (j ≠ 0 ∨ own) → Hidden k σ.mem.pub j view → fn σ = some (o, σ') →
    σ.abandoned ≤ σ'.abandoned ∧ Hidden k σ'.mem.pub (j + (σ'.abandoned - σ.abandoned)) view

theorem hidden_modify {k : Name} {pub : List Frame} {j : Nat} {view : List (Option Val)}
    (h : Hidden k pub j view) (a : List Frame) (f g : Frame) (b : List Frame)
    (hp : pub = a ++ f :: b) (hfg : g.get k = f.get k) : Hidden k (a ++ g :: b) j view := by
  obtain ⟨a1, f1, b1, e1, h1, h2, h3⟩ := h
  rw [hp] at e1
  rcases Nat.lt_trichotomy a.length a1.length with hl | hl | hl
  · obtain ⟨c, rfl, hc⟩ : ∃ c, a1 = a ++ f :: c ∧ b = c ++ f1 :: b1 := by
      have := List.append_eq_append_iff.mp e1
      rcases this with ⟨c, rfl, hc⟩ | ⟨c, rfl, hc⟩
      · cases c with
        | nil => simp at hl
        | cons x c => simp at hc; exact ⟨c, by rw [hc.1], hc.2⟩
      · simp at hl; omega
    exact ⟨a ++ g :: c, f1, b1, by simp [hc], h1, h2, by simpa using h3⟩
  · have := List.append_inj e1 hl
    obtain ⟨rfl, h4⟩ := this
    simp at h4; obtain ⟨rfl, rfl⟩ := h4
    exact ⟨a, g, b, rfl, by simpa [Dict.has, hfg] using h1, h2, h3⟩
  · obtain ⟨c, rfl, hc⟩ : ∃ c, a = a1 ++ f1 :: c ∧ b1 = c ++ f :: b := by
      have := List.append_eq_append_iff.mp e1
      rcases this with ⟨c, rfl, hc⟩ | ⟨c, rfl, hc⟩
      · simp at hl; omega
      · cases c with
        | nil => simp at hl
        | cons x c => simp at hc; exact ⟨c, by rw [hc.1], hc.2⟩
    refine ⟨a1, f1, c ++ g :: b, by simp, h1, ?_, h3⟩
    rw [← h2, hc]; simp [hfg]

/-- Changing the first frame that has `k`, keeping `k` in it. -/
theorem hidden_modify_first {k : Name} {pub : List Frame} {j : Nat} {view : List (Option Val)}
    (h : Hidden k pub j view) (a : List Frame) (f g : Frame) (b : List Frame)
    (hp : pub = a ++ f :: b) (ha : ∀ x ∈ a, x.get k = none) (hg : g.has k = true) :
    Hidden k (a ++ g :: b) j view := by
  obtain ⟨a1, f1, b1, e1, h1, h2, h3⟩ := h
  rw [hp] at e1
  rcases Nat.lt_trichotomy a.length a1.length with hl | hl | hl
  · obtain ⟨c, rfl, hc⟩ : ∃ c, a1 = a ++ f :: c ∧ b = c ++ f1 :: b1 := by
      have := List.append_eq_append_iff.mp e1
      rcases this with ⟨c, rfl, hc⟩ | ⟨c, rfl, hc⟩
      · cases c with
        | nil => simp at hl
        | cons x c => simp at hc; exact ⟨c, by rw [hc.1], hc.2⟩
      · simp at hl; omega
    exact ⟨a ++ g :: c, f1, b1, by simp [hc], h1, h2, by simpa using h3⟩
  · have := List.append_inj e1 hl
    obtain ⟨rfl, h4⟩ := this
    simp at h4; obtain ⟨rfl, rfl⟩ := h4
    exact ⟨a, g, b, rfl, hg, h2, h3⟩
  · exfalso
    have := List.append_eq_append_iff.mp e1
    rcases this with ⟨c, rfl, hc⟩ | ⟨c, rfl, hc⟩
    · simp at hl; omega
    · cases c with
      | nil => simp at hl
      | cons x c =>
        simp at hc
        have := ha x (by simp)
        rw [← hc.1] at this
        simp [Dict.has, this] at h1

theorem hidden_setPub {k k' : Name} {v : Val} {pub p' : List Frame} {j : Nat}
    {view : List (Option Val)} (h : Hidden k pub j view) (hs : Mem.setPub pub k' v = .ok p') :
    Hidden k p' j view := by
  by_cases hk : k' = k
  · subst hk
    rcases Mem.setPub_ok hs with ⟨a, f, b, e, ha, hf, rfl⟩ | ⟨f, b, e, hn, rfl⟩
    · exact hidden_modify_first h a f _ b e ha (by simp [Dict.has_set])
    · obtain ⟨a1, f1, b1, e1, h1, _, _⟩ := h
      have := hn f1 (by rw [e1]; simp)
      simp [Dict.has, this] at h1
  · rcases Mem.setPub_ok hs with ⟨a, f, b, e, ha, hf, rfl⟩ | ⟨f, b, e, hn, rfl⟩
    · exact hidden_modify h a f _ b e (Dict.get_set_ne _ _ (Ne.symm hk))
    · exact hidden_modify h [] f _ b e (Dict.get_set_ne _ _ (Ne.symm hk))

theorem hidden_delPub {k k' : Name} {pub : List Frame} {j : Nat}
    {view : List (Option Val)} (h : Hidden k pub j view) (hk : k' ≠ k) :
    Hidden k (Mem.delPub pub k') j view := by
  rcases Mem.delPub_cases pub k' with ⟨a, f, b, e, ha, hf, h2⟩ | ⟨_, h2⟩
  · rw [h2]; exact hidden_modify h a f _ b e (Dict.get_del_ne _ (Ne.symm hk))
  · rw [h2]; exact h

theorem hidden_setItem {k k' : Name} {v : Val} {m m' : Mem} {j : Nat}
    {view : List (Option Val)} (h : Hidden k m.pub j view) (hs : m.setItem k' v = .ok m') :
    Hidden k m'.pub j view := by
  rcases Mem.setItem_pub hs with h1 | h1
  · rw [h1]; exact h
  · exact hidden_setPub h h1

theorem hidden_add {k : Name} {m m' : Mem} {j : Nat} {view : List (Option Val)}
    {kind : Mem.ScopeKind} {names : List Name} {kw : List (Name × Val)}
    (h : Hidden k m.pub j view) (hs : m.add kind names kw = .ok m')
    (hk : kind = .pub → k ∉ names ∧ k ∉ kw.map Prod.fst) : Hidden k m'.pub j view := by
  obtain ⟨pub, loc⟩ := m
  cases kind with
  | loc =>
    cases loc with
    | nil => simp [Mem.add] at hs
    | cons f r => simp only [Mem.add] at hs; cases hs; exact h
  | priv =>
    cases pub with
    | nil => simp [Mem.add] at hs
    | cons f r =>
      simp only [Mem.add] at hs
      cases hs
      obtain ⟨a1, f1, b1, e1, h1, h2, h3⟩ := h
      simp only at e1 ⊢
      cases a1 with
      | nil =>
        simp at e1; obtain ⟨rfl, rfl⟩ := e1
        exact ⟨[], _, _, rfl, Mem.has_addToScope _ _ _ _ h1, h2, h3⟩
      | cons x a1 =>
        simp at e1; obtain ⟨rfl, rfl⟩ := e1
        exact ⟨Mem.addToScope f names kw :: a1, f1, b1, by simp, h1, h2, by simpa using h3⟩
  | pub =>
    obtain ⟨n1, n2⟩ := hk rfl
    cases pub with
    | nil => simp [Mem.add] at hs
    | cons f r =>
      simp only [Mem.add] at hs
      cases hs
      obtain ⟨a, g, hag⟩ : ∃ a g, f :: r = a ++ [g] := ⟨(f :: r).dropLast, (f :: r).getLast (by simp), by
        rw [List.dropLast_concat_getLast]⟩
      have hlen : r.length = a.length := by
        have := congrArg List.length hag; simp at this; exact this
      simp only
      rw [hag, hlen, Mem.modify_mid]
      simp only at h
      rw [hag] at h
      exact hidden_modify h a g _ [] rfl (Mem.get_addToScope_ne _ _ _ _ n1 n2)

theorem hidden_length {k : Name} {pub : List Frame} {j : Nat} {view : List (Option Val)}
    (h : Hidden k pub j view) : pub.length = j + 1 + view.length := by
  obtain ⟨a, f, b, rfl, _, h2, rfl⟩ := h
  rw [← h2]; simp; omega

theorem hidden_finish {k : Name} {o o' : Outcome} {σ σ' : State} {j : Nat}
    {view : List (Option Val)} (h : Hidden k σ.mem.pub (j + 1) view)
    (hf : finishCall o σ = (o', σ')) :
    σ.abandoned ≤ σ'.abandoned ∧ Hidden k σ'.mem.pub (j + (σ'.abandoned - σ.abandoned)) view := by
  have bad : ∀ e, (Outcome.err e, ({ σ with abandoned := σ.abandoned + 1 } : State)) = (o', σ') →
      σ.abandoned ≤ σ'.abandoned ∧ Hidden k σ'.mem.pub (j + (σ'.abandoned - σ.abandoned)) view := by
    intro e he
    cases he
    refine ⟨Nat.le_succ _, ?_⟩
    have : j + (σ.abandoned + 1 - σ.abandoned) = j + 1 := by omega
    simp only [this]; exact h
  have good : ∀ oo, finishCall oo σ = (o', σ') → (∀ x, oo ≠ .err x) →
      σ.abandoned ≤ σ'.abandoned ∧ Hidden k σ'.mem.pub (j + (σ'.abandoned - σ.abandoned)) view := by
    intro oo ho hx
    cases oo with
    | err x => exact absurd rfl (hx x)
    | done =>
      simp only [finishCall] at ho
      split at ho
      · rename_i m _ hm
        cases ho
        obtain ⟨a, f, b, e, h1, h2, h3⟩ := h
        cases a with
        | nil => simp at h3
        | cons x a =>
          simp at h3
          simp only [Mem.pop, e] at hm
          cases hl : σ.mem.loc with
          | nil => simp [hl] at hm
          | cons l ls =>
            simp [hl] at hm
            refine ⟨Nat.le_refl _, a, f, b, ?_, h1, h2, by simp; exact h3⟩
            rw [← hm]
      · exact bad _ ho
    | ret v =>
      simp only [finishCall] at ho
      split at ho
      · rename_i m _ hm
        cases ho
        obtain ⟨a, f, b, e, h1, h2, h3⟩ := h
        cases a with
        | nil => simp at h3
        | cons x a =>
          simp at h3
          simp only [Mem.pop, e] at hm
          cases hl : σ.mem.loc with
          | nil => simp [hl] at hm
          | cons l ls =>
            simp [hl] at hm
            refine ⟨Nat.le_refl _, a, f, b, ?_, h1, h2, by simp; exact h3⟩
            rw [← hm]
      · exact bad _ ho
  cases o with
  | err x => exact bad x hf
  | done => exact good _ hf (by simp)
  | ret v => exact good _ hf (by simp)

theorem keeps_scoper {k : Name} {kind : ParamKind} {names : List Name}
    {fn : State → Option (Outcome × State)} (hf : Keeps k False fn) (args : List Val) :
    Keeps k True (scoper kind names fn args) := by
  intro σ o σ' j view _ hh hr
  have hen : ∀ n c, Hidden k (enter σ n c).mem.pub (j + 1) view := by
    intro n c
    obtain ⟨a, f, b, e, h1, h2, h3⟩ := hh
    exact ⟨[] :: a, f, b, by simp [enter, Mem.push, e], h1, h2, by simp [h3]⟩
  rcases scoper_cases kind names fn args σ with ⟨e, n, he, _⟩ | ⟨m, hm, _, he⟩
  · rw [he] at hr
    simp only [Option.some.injEq] at hr
    have := hidden_finish (hen n args.length) hr
    simpa [enter] using this
  · rw [he] at hr
    simp only [Option.map_eq_some_iff] at hr
    obtain ⟨⟨o1, σ1⟩, h1, h2⟩ := hr
    have hm' := hidden_add (hen args.length args.length) hm (by cases kind <;> simp [ParamKind.scope])
    obtain ⟨c1, c2⟩ := hf _ _ _ _ _ (Or.inl (by simp)) hm' h1
    simp only [enter] at c1 c2
    have e1 : j + 1 + (σ1.abandoned - σ.abandoned) = (j + (σ1.abandoned - σ.abandoned)) + 1 := by omega
    rw [e1] at c2
    obtain ⟨d1, d2⟩ := hidden_finish c2 h2
    refine ⟨by omega, ?_⟩
    have e2 : j + (σ'.abandoned - σ.abandoned)
        = j + (σ1.abandoned - σ.abandoned) + (σ'.abandoned - σ1.abandoned) := by omega
    rw [e2]; exact d2

theorem keeps_seq {k : Name} {own : Prop} {σ σ1 σ' : State} {o1 o : Outcome} {j : Nat}
    {view : List (Option Val)} {fn gn : State → Option (Outcome × State)}
    (hf : Keeps k own fn) (hg : Keeps k own gn) (ho : j ≠ 0 ∨ own) (hh : Hidden k σ.mem.pub j view)
    (h1 : fn σ = some (o1, σ1)) (h2 : gn σ1 = some (o, σ')) :
    σ.abandoned ≤ σ'.abandoned ∧ Hidden k σ'.mem.pub (j + (σ'.abandoned - σ.abandoned)) view := by
  obtain ⟨a1, a2⟩ := hf _ _ _ _ _ ho hh h1
  obtain ⟨b1, b2⟩ := hg _ _ _ _ _ (ho.imp (by omega) id) a2 h2
  refine ⟨by omega, ?_⟩
  have e2 : j + (σ'.abandoned - σ.abandoned)
      = j + (σ1.abandoned - σ.abandoned) + (σ'.abandoned - σ1.abandoned) := by omega
  rw [e2]; exact b2

theorem run_keeps (k : Name) (P : Procs) (hP : ∀ p d, P p = some d → KeepsName k d.body) :
    ∀ n s own, KeepsName k s → (own → NoReleaseAll s) → Keeps k own (run P n s) := by
  intro n
  induction n with
  | zero => intro s own _ _ σ o σ' j view _ _ h; simp [run] at h
  | succ n ih =>
    intro s own hs hn σ o σ' j view hj hh h
    have same : ∀ {τ : State}, τ.abandoned = σ.abandoned → Hidden k τ.mem.pub j view →
        σ.abandoned ≤ τ.abandoned ∧ Hidden k τ.mem.pub (j + (τ.abandoned - σ.abandoned)) view := by
      intro τ e1 e2
      rw [e1]; exact ⟨Nat.le_refl _, by simpa using e2⟩
    cases s with
    | skip => simp only [run] at h; cases h; exact same rfl hh
    | raise msg => simp only [run] at h; cases h; exact same rfl hh
    | seq a b =>
      simp only [run] at h
      split at h
      · rename_i σ1 h1
        exact keeps_seq (ih a own hs.1 (fun c => (hn c).1)) (ih b own hs.2 (fun c => (hn c).2)) hj hh h1 h
      · exact ih a own hs.1 (fun c => (hn c).1) _ _ _ _ _ hj hh h
    | assign k' e =>
      simp only [run] at h
      split at h
      · cases h; exact same rfl hh
      · split at h
        · cases h; exact same rfl hh
        · rename_i hm; cases h; exact same rfl (hidden_setItem hh hm)
    | declare kind names kw =>
      simp only [run] at h
      split at h
      · cases h; exact same rfl hh
      · rename_i hm
        cases h
        refine same rfl (hidden_add hh hm ?_)
        rintro rfl; exact hs
    | del k' =>
      simp only [run] at h
      cases h
      refine same rfl ?_
      rcases Mem.delItem_pub σ.mem k' with h1 | h1
      · simp only [h1]; exact hh
      · simp only [h1]; exact hidden_delPub hh hs
    | releaseAll =>
      simp only [run] at h
      split at h
      · cases h; exact same rfl hh
      · rename_i m hm
        cases h
        refine same rfl ?_
        obtain ⟨p, ps, l, ls, e1, rfl⟩ := Mem.release_ok hm
        have hj' : j ≠ 0 := hj.elim id (fun c => absurd (hn c) (by simp [NoReleaseAll]))
        obtain ⟨a, f, b, e2, h1, h2, h3⟩ := hh
        rw [e1] at e2
        cases a with
        | nil => simp at h3; exact absurd h3.symm hj'
        | cons x a =>
          simp at e2
          exact ⟨[] :: a, f, b, by simp [e2.2], h1, h2, by simpa using h3⟩
    | ite c a b =>
      simp only [run] at h
      repeat' split at h
      · cases h; exact same rfl hh
      · exact ih a own hs.1 (fun c => (hn c).1) _ _ _ _ _ hj hh h
      · exact ih b own hs.2 (fun c => (hn c).2) _ _ _ _ _ hj hh h
    | loop c a =>
      simp only [run] at h
      repeat' split at h
      · cases h; exact same rfl hh
      · rename_i h1
        exact keeps_seq (ih a own hs hn) (ih (.loop c a) own hs hn) hj hh h1 h
      · exact ih a own hs hn _ _ _ _ _ hj hh h
      · cases h; exact same rfl hh
    | call dest p args =>
      rcases run_call_inv h with ⟨x, rfl, rfl⟩ | ⟨vs, d, o1, σ1, _, hd, h1, h2⟩
      · exact same rfl hh
      obtain ⟨a1, a2⟩ := keeps_scoper (ih d.body False (hP _ _ hd) (fun c => c.elim)) vs _ _ _ _ _
        (Or.inr trivial) hh h1
      rcases h2 with ⟨v, _, h2⟩ | ⟨_, rfl⟩
      · have b := (storeResult_rest dest v σ1).1
        rw [h2] at b
        simp only at b
        rw [b]
        refine ⟨a1, ?_⟩
        cases dest with
        | none => simp only [storeResult] at h2; cases h2; exact a2
        | some k' =>
          simp only [storeResult] at h2
          split at h2
          · cases h2; exact a2
          · rename_i hm; cases h2; exact hidden_setItem a2 hm
      · exact ⟨a1, a2⟩
    | ret e => simp only [run] at h; repeat' split at h
               all_goals cases h; exact same rfl hh
    | tryCatch a b =>
      simp only [run] at h
      split at h
      · rename_i h1
        exact keeps_seq (ih a own hs.1 (fun c => (hn c).1)) (ih b own hs.2 (fun c => (hn c).2)) hj hh h1 h
      · exact ih a own hs.1 (fun c => (hn c).1) _ _ _ _ _ hj hh h

/-! ### Parameter binding -/

theorem get_bind_other (names : List Name) (args : List Val) (k : Name) (h : k ∉ names) :
    ∀ f : Frame, ((names.zip args).foldl (fun (acc : Frame) (p : Name × Val) => Dict.set acc p.1 p.2) f).get k
      = f.get k := by
  induction names generalizing args with
  | nil => intro f; simp
  | cons x xs ih =>
    intro f
    cases args with
    | nil => simp
    | cons a as =>
      simp only [List.mem_cons, not_or] at h
      simp only [List.zip_cons_cons, List.foldl_cons]
      rw [ih _ h.2, Dict.get_set_ne _ _ h.1]

theorem get_bind (names : List Name) (args : List Val) (hn : names.Nodup) (i : Nat)
    (h : i < names.length) : ∀ f : Frame,
    ((names.zip args).foldl (fun (acc : Frame) (p : Name × Val) => Dict.set acc p.1 p.2) f).get names[i]
      = match args[i]? with
        | some v => some v
        | none => f.get names[i] := by
  induction names generalizing args i with
  | nil => simp at h
  | cons x xs ih =>
    intro f
    cases args with
    | nil => simp
    | cons a as =>
      simp only [List.zip_cons_cons, List.foldl_cons]
      rw [List.nodup_cons] at hn
      cases i with
      | zero =>
        simp only [List.getElem_cons_zero, List.getElem?_cons_zero]
        rw [get_bind_other xs as x hn.1, Dict.get_set_self]
      | succ i =>
        simp only [List.getElem_cons_succ, List.getElem?_cons_succ]
        have hi : i < xs.length := by simpa using h
        rw [ih as hn.2 i hi]
        have hne : xs[i] ≠ x := fun c => hn.1 (by rw [← c]; exact List.getElem_mem hi)
        rw [Dict.get_set_ne _ _ hne]

theorem get_addToScope_names (names : List Name) (f : Frame) (k : Name) :
    (Mem.addToScope f names []).get k = if k ∈ names then some (.bool false) else f.get k := by
  unfold Mem.addToScope
  simp only [List.foldl_nil]
  induction names generalizing f with
  | nil => simp
  | cons n ns ih =>
    rw [List.foldl_cons, ih]
    by_cases h : k ∈ ns
    · simp [h]
    · by_cases h2 : k = n
      · subst h2; simp [h, Dict.get_set_self]
      · simp [h, h2, Dict.get_set_ne]

theorem set_fresh (f : Frame) (k : Name) (v : Val) (h : k ∉ f.map Prod.fst) :
    Dict.set f k v = f ++ [(k, v)] := by
  induction f with
  | nil => rfl
  | cons p t ih =>
    simp only [List.map_cons, List.mem_cons, not_or] at h
    simp [Dict.set, Ne.symm h.1, ih h.2]

theorem foldl_set_fresh (l : List (Name × Val)) : ∀ f : Frame, ((f ++ l).map Prod.fst).Nodup →
    l.foldl (fun (acc : Frame) (p : Name × Val) => Dict.set acc p.1 p.2) f = f ++ l := by
  induction l with
  | nil => intro f _; simp
  | cons p l ih =>
    intro f hn
    have h1 : p.1 ∉ f.map Prod.fst := by
      simp only [List.map_append, List.map_cons] at hn
      intro c
      exact (List.nodup_append.mp hn).2.2 _ c p.1 (by simp) rfl
    rw [List.foldl_cons, set_fresh f p.1 p.2 h1, ih]
    · simp
    · simpa using hn

theorem zip_keys_nodup (names : List Name) (args : List Val) (h : names.Nodup) :
    ((names.zip args).map Prod.fst).Nodup := by
  have : (names.zip args).map Prod.fst = names.take args.length := by
    induction names generalizing args with
    | nil => simp
    | cons x xs ih =>
      cases args with
      | nil => simp
      | cons a as =>
        simp only [List.zip_cons_cons, List.map_cons, List.length_cons, List.take_succ_cons]
        rw [ih _ (List.nodup_cons.mp h).2]
  rw [this]
  exact h.sublist (List.take_sublist _ _)

/-- The dictionary of a freshly entered level. -/
theorem get_params (names : List Name) (args : List Val) (hn : names.Nodup) :
    let f := Mem.addToScope [] (names.drop args.length)
      ((names.zip args).foldl (fun (acc : Frame) (p : Name × Val) => Dict.set acc p.1 p.2) ([] : Frame))
    (∀ i (h : i < names.length), f.get names[i] = some (args[i]?.getD (.bool false))) ∧
    (∀ k, k ∉ names → f.get k = none) := by
  have h1 := foldl_set_fresh (names.zip args) [] (by simpa using zip_keys_nodup names args hn)
  rw [h1]
  simp only [List.nil_append]
  have h0 : ∀ k, (Mem.addToScope [] (names.drop args.length) []).get k
      = if k ∈ names.drop args.length then some (.bool false) else none := by
    intro k; rw [get_addToScope_names]; rfl
  have hadd : Mem.addToScope [] (names.drop args.length) (names.zip args) =
      (names.zip args).foldl (fun (acc : Frame) (p : Name × Val) => Dict.set acc p.1 p.2)
        (Mem.addToScope [] (names.drop args.length) []) := rfl
  constructor
  · intro i hi
    rw [hadd, get_bind names args hn i hi]
    cases h : args[i]? with
    | some v => simp
    | none =>
      have hle : args.length ≤ i := by simpa using h
      have hm : names[i] ∈ names.drop args.length := by
        have : i - args.length < (names.drop args.length).length := by simp; omega
        have h2 := List.getElem_mem this
        rw [List.getElem_drop] at h2
        have e : args.length + (i - args.length) = i := by omega
        simpa [e] using h2
      simp [h0, hm]
  · intro k hk
    rw [hadd, get_bind_other names args k hk, h0]
    have : k ∉ names.drop args.length := fun c => hk (List.mem_of_mem_drop c)
    simp [this]

end Model
