import Verif.Spec.Memvar
/-! Helper lemmas about the memory-variable model. -/
namespace Model
open Py Spec

namespace Mem

theorem findPub_none {k : Name} {fs : List Frame} (h : findPub k fs = none) :
    ∀ f ∈ fs, f.get k = none := by
  induction fs with
  | nil => simp
  | cons f fs ih =>
    simp only [findPub] at h
    split at h
    · simp at h
    · rename_i hf
      simp at h
      intro g hg
      rcases List.mem_cons.mp hg with rfl | hg
      · simpa [Dict.has] using hf
      · exact ih h g hg

theorem findPub_some {k : Name} {fs : List Frame} {i : Nat} (h : findPub k fs = some i) :
    ∃ a f b, fs = a ++ f :: b ∧ a.length = i ∧ (∀ x ∈ a, x.get k = none) ∧ f.has k = true := by
  induction fs generalizing i with
  | nil => simp [findPub] at h
  | cons f fs ih =>
    simp only [findPub] at h
    split at h
    · rename_i hf
      simp at h; subst h
      exact ⟨[], f, fs, rfl, rfl, by simp, hf⟩
    · rename_i hf
      simp at h
      obtain ⟨j, hj, rfl⟩ := h
      obtain ⟨a, g, b, rfl, rfl, ha, hg⟩ := ih hj
      refine ⟨f :: a, g, b, rfl, rfl, ?_, hg⟩
      intro x hx
      rcases List.mem_cons.mp hx with rfl | hx
      · simpa [Dict.has] using hf
      · exact ha x hx

theorem modify_mid {α : Type} (a : List α) (f : α) (b : List α) (g : α → α) :
    (a ++ f :: b).modify a.length g = a ++ g f :: b := by
  induction a with
  | nil => simp
  | cons x a ih => simp [ih]

/-- `M.pub` after an assignment to a name that is not local. -/
def setPub (pub : List Frame) (k : Name) (v : Val) : Except Err (List Frame) :=
  match findPub k pub with
  | some i => .ok (pub.modify i (fun f => f.set k v))
  | none =>
    match pub with
    | [] => .error .indexError
    | f :: fs => .ok (f.set k v :: fs)

def delPub (pub : List Frame) (k : Name) : List Frame :=
  match findPub k pub with
  | some i => pub.modify i (fun f => f.del k)
  | none => pub

theorem setItem_cons (pub : List Frame) (f : Frame) (r : List Frame) (k : Name) (v : Val) :
    setItem ⟨pub, f :: r⟩ k v =
      if f.has k then .ok ⟨pub, f.set k v :: r⟩
      else (setPub pub k v).map (fun p => ⟨p, f :: r⟩) := by
  unfold setItem getScope setPub
  by_cases hf : f.has k
  · simp [hf, modifyAt]
  · simp only [hf]
    cases h : findPub k pub with
    | none => cases pub <;> simp [Except.map]
    | some i => simp [modifyAt, Except.map]

theorem delItem_cons (pub : List Frame) (f : Frame) (r : List Frame) (k : Name) :
    delItem ⟨pub, f :: r⟩ k =
      if f.has k then ⟨pub, f.del k :: r⟩ else ⟨delPub pub k, f :: r⟩ := by
  unfold delItem getScope delPub
  by_cases hf : f.has k
  · simp [hf, modifyAt]
  · simp only [hf]
    cases h : findPub k pub <;> simp [modifyAt]

theorem setPub_ok {pub p' : List Frame} {k : Name} {v : Val} (h : setPub pub k v = .ok p') :
    (∃ a f b, pub = a ++ f :: b ∧ (∀ x ∈ a, x.get k = none) ∧ f.has k = true ∧
      p' = a ++ f.set k v :: b) ∨
    (∃ f b, pub = f :: b ∧ (∀ x ∈ pub, x.get k = none) ∧ p' = f.set k v :: b) := by
  unfold setPub at h
  cases hfp : findPub k pub with
  | some i =>
    obtain ⟨a, f, b, rfl, rfl, ha, hf⟩ := findPub_some hfp
    simp only [hfp, modify_mid] at h
    injection h with h; subst h
    exact Or.inl ⟨a, f, b, rfl, ha, hf, rfl⟩
  | none =>
    have hn := findPub_none hfp
    simp only [hfp] at h
    cases pub with
    | nil => simp at h
    | cons f b =>
      simp at h; subst h
      exact Or.inr ⟨f, b, rfl, hn, rfl⟩

theorem delPub_cases (pub : List Frame) (k : Name) :
    (∃ a f b, pub = a ++ f :: b ∧ (∀ x ∈ a, x.get k = none) ∧ f.has k = true ∧
      delPub pub k = a ++ f.del k :: b) ∨
    ((∀ x ∈ pub, x.get k = none) ∧ delPub pub k = pub) := by
  unfold delPub
  cases hfp : findPub k pub with
  | some i =>
    obtain ⟨a, f, b, rfl, rfl, ha, hf⟩ := findPub_some hfp
    exact Or.inl ⟨a, f, b, rfl, ha, hf, by simp only [modify_mid]⟩
  | none => exact Or.inr ⟨findPub_none hfp, rfl⟩

theorem setPub_length {pub p' : List Frame} {k : Name} {v : Val} (h : setPub pub k v = .ok p') :
    p'.length = pub.length := by
  rcases setPub_ok h with ⟨a, f, b, rfl, _, _, rfl⟩ | ⟨f, b, rfl, _, rfl⟩ <;> simp

theorem delPub_length (pub : List Frame) (k : Name) : (delPub pub k).length = pub.length := by
  rcases delPub_cases pub k with ⟨a, f, b, h, _, _, h2⟩ | ⟨_, h2⟩
  · rw [h2, h]; simp
  · rw [h2]

theorem getItem_cons (pub : List Frame) (f : Frame) (r : List Frame) (k : Name) :
    getItem ⟨pub, f :: r⟩ k =
      match f.get k with
      | some v => .ok v
      | none =>
        match pub.findSome? (fun g => g.get k) with
        | some v => .ok v
        | none => .error .nameError := by
  unfold getItem getScope
  cases hg : f.get k with
  | some v => simp [Dict.has, hg, frameAt]
  | none =>
    simp only [Dict.has, hg, Option.isSome_none]
    cases hfp : findPub k pub with
    | none =>
      have := findPub_none hfp
      have h2 : pub.findSome? (fun g => g.get k) = none := by
        simpa [List.findSome?_eq_none_iff] using this
      simp [h2]
    | some i =>
      obtain ⟨a, g, b, rfl, rfl, ha, hgk⟩ := findPub_some hfp
      have h1 : a.findSome? (fun g => g.get k) = none := by
        simpa [List.findSome?_eq_none_iff] using ha
      obtain ⟨v, hv⟩ := Option.isSome_iff_exists.mp (show (g.get k).isSome = true from hgk)
      simp [frameAt, List.findSome?_append, h1, hv]

end Mem
end Model

namespace Model
open Py Spec

/-- An operation that looks at, and changes, only the top local dictionary and
the private dictionaries, and keeps the number of levels. -/
def HeadOp (op : Mem → Except Err Mem) : Prop :=
  ∀ pub f, (∃ e, ∀ r, op ⟨pub, f :: r⟩ = .error e) ∨
    (∃ pub' f', pub'.length = pub.length ∧ ∀ r, op ⟨pub, f :: r⟩ = .ok ⟨pub', f' :: r⟩)

namespace Mem

theorem headOp_setItem (k : Name) (v : Val) : HeadOp (fun m => m.setItem k v) := by
  intro pub f
  by_cases hf : f.has k
  · exact Or.inr ⟨pub, f.set k v, rfl, fun r => by simp [setItem_cons, hf]⟩
  · cases hs : setPub pub k v with
    | error e => exact Or.inl ⟨e, fun r => by simp [setItem_cons, hf, hs, Except.map]⟩
    | ok p => exact Or.inr ⟨p, f, setPub_length hs, fun r => by simp [setItem_cons, hf, hs, Except.map]⟩

theorem delItem_head (k : Name) (pub : List Frame) (f : Frame) :
    ∃ pub' f', pub'.length = pub.length ∧ ∀ r, delItem ⟨pub, f :: r⟩ k = ⟨pub', f' :: r⟩ := by
  by_cases hf : f.has k
  · exact ⟨pub, f.del k, rfl, fun r => by simp [delItem_cons, hf]⟩
  · exact ⟨delPub pub k, f, delPub_length pub k, fun r => by simp [delItem_cons, hf]⟩

theorem delMany_head (ks : List Name) (pub : List Frame) (f : Frame) :
    ∃ pub' f', pub'.length = pub.length ∧
      ∀ r, ks.foldl delItem ⟨pub, f :: r⟩ = ⟨pub', f' :: r⟩ := by
  induction ks generalizing pub f with
  | nil => exact ⟨pub, f, rfl, fun r => rfl⟩
  | cons k ks ih =>
    obtain ⟨p1, f1, h1, h2⟩ := delItem_head k pub f
    obtain ⟨p2, f2, h3, h4⟩ := ih p1 f1
    exact ⟨p2, f2, h3.trans h1, fun r => by simp [h2, h4]⟩

theorem headOp_release : HeadOp release := by
  intro pub f
  cases pub with
  | nil => exact Or.inl ⟨.indexError, fun r => rfl⟩
  | cons p ps =>
    obtain ⟨p2, f2, h3, h4⟩ := delMany_head (f.keys ++ p.keys) (p :: ps) f
    exact Or.inr ⟨p2, f2, h3, fun r => by simp [release, ← h4]⟩

theorem headOp_add (kind : ScopeKind) (names : List Name) (kw : List (Name × Val)) :
    HeadOp (fun m => m.add kind names kw) := by
  intro pub f
  cases kind with
  | loc => exact Or.inr ⟨pub, addToScope f names kw, rfl, fun r => rfl⟩
  | priv =>
    cases pub with
    | nil => exact Or.inl ⟨.indexError, fun r => rfl⟩
    | cons p ps => exact Or.inr ⟨addToScope p names kw :: ps, f, by simp, fun r => rfl⟩
  | pub =>
    cases pub with
    | nil => exact Or.inl ⟨.indexError, fun r => rfl⟩
    | cons p ps =>
      exact Or.inr ⟨(p :: ps).modify ps.length (fun g => addToScope g names kw), f, by simp, fun r => rfl⟩

end Mem

/-- The state with another list of local dictionaries. -/
def State.withLoc (σ : State) (l : List Frame) : State := { σ with mem := { σ.mem with loc := l } }

@[simp] theorem State.withLoc_loc (σ : State) (l) : (σ.withLoc l).mem.loc = l := rfl
@[simp] theorem State.withLoc_pub (σ : State) (l) : (σ.withLoc l).mem.pub = σ.mem.pub := rfl
@[simp] theorem State.withLoc_pcounts (σ : State) (l) : (σ.withLoc l).pcounts = σ.pcounts := rfl
@[simp] theorem State.withLoc_abandoned (σ : State) (l) : (σ.withLoc l).abandoned = σ.abandoned := rfl
@[simp] theorem State.withLoc_parameters (σ : State) (l) : (σ.withLoc l).parameters = σ.parameters := rfl
@[simp] theorem State.withLoc_started (σ : State) (l) : (σ.withLoc l).started = σ.started := rfl
@[simp] theorem State.withLoc_withLoc (σ : State) (l l') : (σ.withLoc l).withLoc l' = σ.withLoc l' := rfl

theorem State.withLoc_self (σ : State) : σ.withLoc σ.mem.loc = σ := rfl

theorem evalExpr_withLoc (σ : State) (f : Frame) (r r' : List Frame) (e : Expr) :
    evalExpr (σ.withLoc (f :: r)) e = evalExpr (σ.withLoc (f :: r')) e := by
  cases e <;> simp [evalExpr, State.withLoc, Mem.getItem_cons]

theorem evalArgs_withLoc (σ : State) (f : Frame) (r r' : List Frame) (es : List Expr) :
    evalArgs (σ.withLoc (f :: r)) es = evalArgs (σ.withLoc (f :: r')) es := by
  induction es with
  | nil => rfl
  | cons e es ih => simp only [evalArgs, evalExpr_withLoc σ f r r', ih]

/-- What every execution does to the part of the stack below it: it never looks
at `t` and leaves it in place, and the three stacks grow by exactly the number
of calls abandoned on the way. -/
def FrameRel (fn : State → Option (Outcome × State)) (σ : State) (pre : List Frame)
    (o : Outcome) (σ' : State) (pre' : List Frame) (pc' : List Nat) : Prop :=
  pre'.length + σ.abandoned = pre.length + σ'.abandoned ∧
  σ'.pcounts = pc' ++ σ.pcounts ∧ pc'.length + σ.abandoned = σ'.abandoned ∧
  σ'.mem.pub.length + σ.abandoned = σ.mem.pub.length + σ'.abandoned ∧
  ∀ t', fn (σ.withLoc (pre ++ t')) = some (o, σ'.withLoc (pre' ++ t'))

def Framed (fn : State → Option (Outcome × State)) : Prop :=
  ∀ σ o σ' pre t, pre ≠ [] → fn (σ.withLoc (pre ++ t)) = some (o, σ') →
    ∃ pre' pc', σ' = σ'.withLoc (pre' ++ t) ∧ FrameRel fn σ pre o σ' pre' pc'

theorem framed_headOp {op : Mem → Except Err Mem} (h : HeadOp op)
    {fn : State → Option (Outcome × State)}
    (hfn : ∀ σ, fn σ = match op σ.mem with
      | .error x => some (.err x, σ)
      | .ok m => some (.done, { σ with mem := m })) : Framed fn := by
  intro σ o σ' pre t hpre hrun
  cases pre with
  | nil => exact absurd rfl hpre
  | cons f r =>
    rcases h σ.mem.pub f with ⟨e, he⟩ | ⟨pub', f', hl, hk⟩
    · have h1 : ∀ t', fn (σ.withLoc (f :: r ++ t')) = some (.err e, σ.withLoc (f :: r ++ t')) := by
        intro t'; rw [hfn]; simp [State.withLoc, he]
      rw [h1] at hrun
      simp only [Option.some.injEq, Prod.mk.injEq] at hrun
      obtain ⟨rfl, rfl⟩ := hrun
      exact ⟨f :: r, [], by simp, by simp, by simp, by simp, by simp, fun t' => by rw [h1]; simp⟩
    · have h1 : ∀ t', fn (σ.withLoc (f :: r ++ t')) =
          some (.done, { σ with mem := ⟨pub', f' :: (r ++ t')⟩ }) := by
        intro t'; rw [hfn]; simp [State.withLoc, hk]
      rw [h1] at hrun
      simp only [Option.some.injEq, Prod.mk.injEq] at hrun
      obtain ⟨rfl, rfl⟩ := hrun
      exact ⟨f' :: r, [], by simp [State.withLoc], by simp, by simp, by simp, by simpa using hl,
        fun t' => by rw [h1]; simp [State.withLoc]⟩

/-- Executions that only read. -/
theorem framed_pure {fn : State → Option (Outcome × State)} {g : State → Outcome}
    (hfn : ∀ σ, fn σ = some (g σ, σ))
    (hg : ∀ (σ : State) f r r', g (σ.withLoc (f :: r)) = g (σ.withLoc (f :: r'))) : Framed fn := by
  intro σ o σ' pre t hpre hrun
  cases pre with
  | nil => exact absurd rfl hpre
  | cons f r =>
    rw [hfn] at hrun
    simp only [Option.some.injEq, Prod.mk.injEq] at hrun
    obtain ⟨rfl, rfl⟩ := hrun
    exact ⟨f :: r, [], by simp, by simp, by simp, by simp, by simp, fun t' => by
      rw [hfn]; simp [hg σ f (r ++ t') (r ++ t)]⟩

theorem framed_bind {fn gn : State → Option (Outcome × State)} {stop : Outcome → Bool}
    (hf : Framed fn) (hg : Framed gn) :
    Framed (fun σ => match fn σ with
      | some (o, σ1) => if stop o then some (o, σ1) else gn σ1
      | none => none) := by
  intro σ o σ' pre t hpre hrun
  cases h1 : fn (σ.withLoc (pre ++ t)) with
  | none => simp [h1] at hrun
  | some r1 =>
    obtain ⟨o1, σ1⟩ := r1
    obtain ⟨pre1, pc1, e1, a1, a2, a3, a4, a5⟩ := hf _ _ _ _ _ hpre h1
    simp only [h1] at hrun
    by_cases hs : stop o1
    · simp only [hs, if_true, Option.some.injEq, Prod.mk.injEq] at hrun
      obtain ⟨rfl, rfl⟩ := hrun
      exact ⟨pre1, pc1, e1, a1, a2, a3, a4, fun t' => by simp [a5, hs]⟩
    · simp only [hs] at hrun
      have hpre1 : pre1 ≠ [] := by
        intro c; subst c
        have : pre.length ≠ 0 := by simpa using hpre
        simp at a1; omega
      rw [e1] at hrun
      obtain ⟨pre2, pc2, e2, b1, b2, b3, b4, b5⟩ := hg _ _ _ _ _ hpre1 hrun
      refine ⟨pre2, pc2 ++ pc1, e2, by omega, by rw [b2, a2]; simp, by simp; omega, by omega, ?_⟩
      intro t'
      simp only [a5, hs]
      exact b5 t'

theorem framed_dep {fn : State → Option (Outcome × State)} (G : State → (State → Option (Outcome × State)))
    (hG : ∀ (σ : State) f r r', G (σ.withLoc (f :: r)) = G (σ.withLoc (f :: r')))
    (hfr : ∀ σ, Framed (G σ)) (hfn : ∀ σ, fn σ = G σ σ) : Framed fn := by
  intro σ o σ' pre t hpre hrun
  cases pre with
  | nil => exact absurd rfl hpre
  | cons f r =>
    rw [hfn] at hrun
    obtain ⟨pre', pc', e, a1, a2, a3, a4, a5⟩ := hfr _ _ _ _ _ _ hpre hrun
    refine ⟨pre', pc', e, a1, a2, a3, a4, fun t' => ?_⟩
    rw [hfn, List.cons_append, hG σ f (r ++ t') (r ++ t)]
    exact a5 t'


/-- `Framed` without the assumption that the running code has a level of its own. -/
def FramedAll (fn : State → Option (Outcome × State)) : Prop :=
  ∀ σ o σ' pre t, fn (σ.withLoc (pre ++ t)) = some (o, σ') →
    ∃ pre' pc', σ' = σ'.withLoc (pre' ++ t) ∧ FrameRel fn σ pre o σ' pre' pc'

theorem FramedAll.framed {fn : State → Option (Outcome × State)} (h : FramedAll fn) : Framed fn :=
  fun σ o σ' pre t _ hr => h σ o σ' pre t hr

/-- The state in which the wrapped function starts. -/
def enter (σ : State) (n : Nat) (c : Nat) : State :=
  { σ with mem := σ.mem.push, parameters := n, pcounts := n :: σ.pcounts, started := c :: σ.started }

theorem finishCall_framed {fn : State → Option (Outcome × State)} (hf : Framed fn) (n c0 : Nat)
    (m : Mem → Except Err Mem) (hm : HeadOp m) :
    FramedAll (fun σ => match m (enter σ n c0).mem with
      | .error e => some (finishCall (.err e) (enter σ n c0))
      | .ok mm => (fn { enter σ n c0 with mem := mm }).map (fun r => finishCall r.1 r.2)) := by
  intro σ o σ' pre t hrun
  rcases hm ([] :: σ.mem.pub) [] with ⟨e, he⟩ | ⟨pub', f', hl, hk⟩
  · have h1 : ∀ t', m (enter (σ.withLoc (pre ++ t')) n c0).mem = .error e := fun t' => he _
    simp only [h1, finishCall, Option.some.injEq, Prod.mk.injEq] at hrun
    obtain ⟨rfl, rfl⟩ := hrun
    refine ⟨[] :: pre, [n], by simp [enter, State.withLoc, Mem.push], by simp [enter]; omega,
      by simp [enter], by simp [enter]; omega, by simp [enter, Mem.push]; omega, fun t' => ?_⟩
    simp only [h1, finishCall]; simp [enter, State.withLoc, Mem.push]
  · have h1 : ∀ t', m (enter (σ.withLoc (pre ++ t')) n c0).mem = .ok ⟨pub', f' :: (pre ++ t')⟩ :=
      fun t' => hk _
    simp only [h1] at hrun
    have h2 : ∀ t', fn ({ enter (σ.withLoc (pre ++ t')) n c0 with mem := ⟨pub', f' :: (pre ++ t')⟩ } : State)
        = fn (({ enter σ n c0 with mem := ⟨pub', f' :: pre⟩ } : State).withLoc ((f' :: pre) ++ t')) := by
      intro t'; rfl
    rw [h2] at hrun
    simp only [Option.map_eq_some_iff] at hrun
    obtain ⟨⟨o1, σ1⟩, hfn, hfin⟩ := hrun
    obtain ⟨pre1, pc1, e1, a1, a2, a3, a4, a5⟩ := hf _ _ _ _ _ (by simp) hfn
    simp only [enter] at a1 a2 a3 a4
    have hp1 : pre1.length ≠ 0 := by simp at a1; omega
    obtain ⟨g, pre2, rfl⟩ : ∃ g pre2, pre1 = g :: pre2 := by
      cases pre1 with
      | nil => simp at hp1
      | cons g p => exact ⟨g, p, rfl⟩
    have hpu : σ1.mem.pub.length ≠ 0 := by simp at hl; omega
    obtain ⟨pf, ps, hps⟩ : ∃ g pre2, σ1.mem.pub = g :: pre2 := by
      cases h : σ1.mem.pub with
      | nil => simp [h] at hpu
      | cons g p => exact ⟨g, p, rfl⟩
    obtain ⟨c, cs, hcs⟩ : ∃ c cs, σ1.pcounts = c :: cs := by
      rw [a2]; cases pc1 <;> simp
    by_cases ho : ∃ x, o1 = .err x
    · obtain ⟨x, rfl⟩ := ho
      simp only [finishCall, Prod.mk.injEq] at hfin
      obtain ⟨rfl, rfl⟩ := hfin
      refine ⟨g :: pre2, pc1 ++ [n], ?_, ?_, ?_, ?_, ?_, fun t' => ?_⟩
      · have h5 : σ1.mem.loc = (g :: pre2) ++ t := by rw [e1]; rfl
        rw [← h5]; rfl
      · simp at a1 ⊢; omega
      · simp [a2]
      · simp at a3 ⊢; omega
      · simp at a4 hl ⊢; omega
      · simp only [h1]; rw [h2, a5]; simp [finishCall, State.withLoc]
    · have hloc : σ1.mem.loc = (g :: pre2) ++ t := by
        rw [e1]; rfl
      have hpop : ∀ t', (σ1.withLoc ((g :: pre2) ++ t')).mem.pop = .ok ⟨ps, pre2 ++ t'⟩ := by
        intro t'; simp [State.withLoc, Mem.pop, hps]
      have hfc : ∀ t', finishCall o1 (σ1.withLoc ((g :: pre2) ++ t')) =
          ((finishCall o1 σ1).1, { σ1 with mem := ⟨ps, pre2 ++ t'⟩, pcounts := cs }) := by
        intro t'
        have hp2 := hpop t; rw [← e1] at hp2
        cases o1 with
        | err x => exact absurd ⟨x, rfl⟩ ho
        | done => simp only [finishCall, hpop, hp2, State.withLoc_pcounts, hcs]; simp [State.withLoc]
        | ret v => simp only [finishCall, hpop, hp2, State.withLoc_pcounts, hcs]; simp [State.withLoc]
      have h3 := hfc t
      rw [← e1] at h3
      simp only at hfin
      rw [h3] at hfin
      simp only [Prod.mk.injEq] at hfin
      obtain ⟨ho', rfl⟩ := hfin
      refine ⟨pre2, (pc1 ++ [n]).tail, by simp [State.withLoc], ?_, ?_, ?_, ?_, fun t' => ?_⟩
      · simp at a1 ⊢; omega
      · have : (pc1 ++ [n]) ++ σ.pcounts = c :: cs := by rw [← hcs, a2]; simp
        cases pc1 <;> simp only [List.nil_append, List.cons_append, List.cons.injEq] at this <;>
          simp [this.2]
      · simp at a3 ⊢; omega
      · simp [hps] at a4 hl ⊢; omega
      · simp only [h1]; rw [h2, a5, ← ho']; simp only [Option.map_some]
        rw [hfc]; rfl

theorem framedAll_congr {fn gn : State → Option (Outcome × State)} (h : ∀ σ, fn σ = gn σ)
    (hg : FramedAll gn) : FramedAll fn := by
  have : fn = gn := funext h
  rw [this]; exact hg

theorem framed_congr {fn gn : State → Option (Outcome × State)} (h : ∀ σ, fn σ = gn σ)
    (hg : Framed gn) : Framed fn := by
  have : fn = gn := funext h
  rw [this]; exact hg

theorem headOp_ok : HeadOp (fun m => .ok m) := fun pub f => Or.inr ⟨pub, f, rfl, fun _ => rfl⟩
theorem headOp_error (e : Err) : HeadOp (fun _ => .error e) := fun _ _ => Or.inl ⟨e, fun _ => rfl⟩

theorem framed_scoper (kind : ParamKind) (names : List Name)
    {fn : State → Option (Outcome × State)} (hf : Framed fn) (args : List Val) :
    FramedAll (scoper kind names fn args) := by
  cases names with
  | nil =>
    cases args with
    | nil => exact framedAll_congr (fun σ => rfl) (finishCall_framed hf 0 0 (fun m => .ok m) headOp_ok)
    | cons a as =>
      exact framedAll_congr (fun σ => rfl)
        (finishCall_framed hf 0 (as.length + 1) (fun _ => .error .typeError) (headOp_error _))
  | cons x xs =>
    exact framedAll_congr (fun σ => rfl)
      (finishCall_framed hf args.length args.length
        (fun m => m.add kind.scope ((x :: xs).drop args.length)
          (((x :: xs).zip args).foldl (fun (acc : Frame) (p : Name × Val) => Dict.set acc p.1 p.2)
            ([] : Frame)))
        (Mem.headOp_add _ _ _))

theorem framed_none : Framed (fun _ => none) := by
  intro σ o σ' pre t _ h; simp at h

theorem run_framed (P : Procs) : ∀ n s, Framed (run P n s) := by
  intro n
  induction n with
  | zero => intro s; exact framed_congr (fun σ => rfl) framed_none
  | succ n ih =>
    intro s
    cases s with
    | skip => exact framed_pure (g := fun _ => .done) (fun σ => rfl) (fun _ _ _ _ => rfl)
    | raise msg => exact framed_pure (g := fun _ => .err (.user msg)) (fun σ => rfl) (fun _ _ _ _ => rfl)
    | seq a b =>
      refine framed_congr (fun σ => ?_) (framed_bind (stop := fun o => o ≠ .done) (ih a) (ih b))
      simp only [run]
      cases run P n a σ with
      | none => rfl
      | some r => obtain ⟨o, σ1⟩ := r; cases o <;> rfl
    | assign k e =>
      refine framed_dep (fun σ τ => match evalExpr σ e with
        | .error x => some (.err x, τ)
        | .ok v => match τ.mem.setItem k v with
          | .error x => some (.err x, τ)
          | .ok m => some (.done, { τ with mem := m })) ?_ ?_ (fun σ => rfl)
      · intro σ f r r'; simp only [evalExpr_withLoc σ f r r']
      · intro σ
        cases evalExpr σ e with
        | error x => exact framed_pure (g := fun _ => .err x) (fun σ => rfl) (fun _ _ _ _ => rfl)
        | ok v => exact framed_headOp (Mem.headOp_setItem k v) (fun σ => rfl)
    | declare kind names kw => exact framed_headOp (Mem.headOp_add kind names kw) (fun σ => rfl)
    | del k =>
      refine framed_headOp (op := fun m => .ok (m.delItem k)) ?_ (fun σ => rfl)
      intro pub f
      obtain ⟨p, f', h1, h2⟩ := Mem.delItem_head k pub f
      exact Or.inr ⟨p, f', h1, fun r => by simp only [h2]⟩
    | releaseAll => exact framed_headOp Mem.headOp_release (fun σ => rfl)
    | ite c a b =>
      refine framed_dep (fun σ τ => match evalExpr σ c with
        | .error x => some (.err x, τ)
        | .ok v => if v.truthy then run P n a τ else run P n b τ) ?_ ?_ (fun σ => rfl)
      · intro σ f r r'; simp only [evalExpr_withLoc σ f r r']
      · intro σ
        cases evalExpr σ c with
        | error x => exact framed_pure (g := fun _ => .err x) (fun σ => rfl) (fun _ _ _ _ => rfl)
        | ok v => 
          cases hv : v.truthy <;> simp only [hv]
          · exact ih b
          · exact ih a
    | loop c a =>
      refine framed_dep (fun σ τ => match evalExpr σ c with
        | .error x => some (.err x, τ)
        | .ok v => if v.truthy then
            match run P n a τ with
            | some (.done, σ1) => run P n (.loop c a) σ1
            | r => r
          else some (.done, τ)) ?_ ?_ (fun σ => rfl)
      · intro σ f r r'; simp only [evalExpr_withLoc σ f r r']
      · intro σ
        cases evalExpr σ c with
        | error x => exact framed_pure (g := fun _ => .err x) (fun σ => rfl) (fun _ _ _ _ => rfl)
        | ok v =>
          cases hv : v.truthy <;> simp only [hv]
          · exact framed_pure (g := fun _ => .done) (fun σ => rfl) (fun _ _ _ _ => rfl)
          · refine framed_congr (fun σ => ?_) (framed_bind (stop := fun o => o ≠ .done) (ih a) (ih (.loop c a)))
            cases run P n a σ with
            | none => rfl
            | some r => obtain ⟨o, σ1⟩ := r; cases o <;> rfl
    | call dest p args =>
      refine framed_dep (fun σ τ => match evalArgs σ args with
        | .error x => some (.err x, τ)
        | .ok vs => match P p with
          | none => some (.err .nameError, τ)
          | some d => match scoper d.kind d.params (run P n d.body) vs τ with
            | some (.ret v, σ1) => some (storeResult dest v σ1)
            | r => r) ?_ ?_ (fun σ => rfl)
      · intro σ f r r'; simp only [evalArgs_withLoc σ f r r']
      · intro σ
        cases evalArgs σ args with
        | error x => exact framed_pure (g := fun _ => .err x) (fun σ => rfl) (fun _ _ _ _ => rfl)
        | ok vs =>
          cases hp : P p with
          | none => exact framed_pure (g := fun _ => .err .nameError) (fun σ => rfl) (fun _ _ _ _ => rfl)
          | some d =>
            simp only
            have hs := (framed_scoper d.kind d.params (ih d.body) vs).framed
            have hb : ∀ v, Framed (fun σ1 => some (storeResult dest v σ1)) := by
              intro v
              cases dest with
              | none => exact framed_pure (g := fun _ => .done) (fun σ => rfl) (fun _ _ _ _ => rfl)
              | some k =>
                refine framed_headOp (Mem.headOp_setItem k v) (fun σ => ?_)
                simp only [storeResult]; cases σ.mem.setItem k v <;> rfl
            intro σ o σ' pre t hpre hrun
            cases h1 : scoper d.kind d.params (run P n d.body) vs (σ.withLoc (pre ++ t)) with
            | none => simp [h1] at hrun
            | some r1 =>
              obtain ⟨o1, σ1⟩ := r1
              simp only [h1] at hrun
              cases o1 with
              | done =>
                obtain ⟨pre1, pc1, e1, a⟩ := hs _ _ _ _ _ hpre h1
                simp only [Option.some.injEq, Prod.mk.injEq] at hrun
                obtain ⟨rfl, rfl⟩ := hrun
                obtain ⟨a1, a2, a3, a4, a5⟩ := a
                exact ⟨pre1, pc1, e1, a1, a2, a3, a4, fun t' => by simp only [a5]⟩
              | err x =>
                obtain ⟨pre1, pc1, e1, a⟩ := hs _ _ _ _ _ hpre h1
                simp only [Option.some.injEq, Prod.mk.injEq] at hrun
                obtain ⟨rfl, rfl⟩ := hrun
                obtain ⟨a1, a2, a3, a4, a5⟩ := a
                exact ⟨pre1, pc1, e1, a1, a2, a3, a4, fun t' => by simp only [a5]⟩
              | ret v =>
                have hbind := framed_bind (stop := fun _ => false) hs (hb v)
                obtain ⟨pre1, pc1, e1, a⟩ := hbind σ o σ' pre t hpre (by simpa [h1] using hrun)
                obtain ⟨a1, a2, a3, a4, a5⟩ := a
                obtain ⟨preS, pcS, eS, _, _, _, _, aS⟩ := hs _ _ _ _ _ hpre h1
                refine ⟨pre1, pc1, e1, a1, a2, a3, a4, fun t' => ?_⟩
                have := a5 t'
                simp only [aS] at this ⊢
                simpa using this
    | ret e =>
      refine framed_pure (g := fun σ => match evalExpr σ e with
        | .error x => .err x
        | .ok v => .ret v) (fun σ => ?_) ?_
      · simp only [run]; cases evalExpr σ e <;> rfl
      · intro σ f r r'; simp only [evalExpr_withLoc σ f r r']
    | tryCatch a h =>
      refine framed_congr (fun σ => ?_)
        (framed_bind (stop := fun o => match o with | .err _ => false | _ => true) (ih a) (ih h))
      simp only [run]
      cases run P n a σ with
      | none => rfl
      | some r => obtain ⟨o, σ1⟩ := r; cases o <;> rfl

end Model
