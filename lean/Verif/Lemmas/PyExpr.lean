import Verif.Spec.PyExpr
/-! Reading Python expressions: lemmas. -/
namespace Props.PyExprAux
open PyExpr

theorem mono_all (f : Nat) :
    (∀ m ts r, expr f m ts = some r → expr (f + 1) m ts = some r) ∧
    (∀ m ts r, start f m ts = some r → start (f + 1) m ts = some r) ∧
    (∀ m l ts r, more f m l ts = some r → more (f + 1) m l ts = some r) ∧
    (∀ ts r, args f ts = some r → args (f + 1) ts = some r) ∧
    (∀ ts r, argList f ts = some r → argList (f + 1) ts = some r) ∧
    (∀ l ts r, subscript f l ts = some r → subscript (f + 1) l ts = some r) ∧
    (∀ l a ts r, sliceEnd f l a ts = some r → sliceEnd (f + 1) l a ts = some r) := by
  induction f with
  | zero =>
    refine ⟨?_, ?_, ?_, ?_, ?_, ?_, ?_⟩ <;> intros <;> simp_all [expr, start, more, args, argList, subscript, sliceEnd]
  | succ f ih =>
    obtain ⟨he, hs, hm, ha, hl, hsub, hse⟩ := ih
    refine ⟨?_, ?_, ?_, ?_, ?_, ?_, ?_⟩
    · intro m ts r h
      rw [expr] at h ⊢
      obtain ⟨p, h1, h2⟩ := Option.bind_eq_some_iff.mp h
      exact Option.bind_eq_some_iff.mpr ⟨p, hs _ _ _ h1, hm _ _ _ _ h2⟩
    · intro m ts r h
      rw [start.eq_def] at h ⊢
      simp only [] at h ⊢
      split at h
      · exact h
      · exact h
      · exact h
      · obtain ⟨p, h1, h2⟩ := Option.map_eq_some_iff.mp h
        exact Option.map_eq_some_iff.mpr ⟨p, he _ _ _ h1, h2⟩
      · obtain ⟨p, h1, h2⟩ := Option.map_eq_some_iff.mp h
        exact Option.map_eq_some_iff.mpr ⟨p, he _ _ _ h1, h2⟩
      · split at h
        · rename_i hm3
          rw [if_pos hm3]
          obtain ⟨p, h1, h2⟩ := Option.map_eq_some_iff.mp h
          exact Option.map_eq_some_iff.mpr ⟨p, he _ _ _ h1, h2⟩
        · cases h
      · obtain ⟨p, h1, h2⟩ := Option.bind_eq_some_iff.mp h
        exact Option.bind_eq_some_iff.mpr ⟨p, he _ _ _ h1, h2⟩
      · cases h
    · intro m l ts r h
      rw [more.eq_def] at h ⊢
      simp only [] at h ⊢
      split at h
      · split at h
        · rename_i hc
          rw [if_pos hc]
          obtain ⟨p, h1, h2⟩ := Option.bind_eq_some_iff.mp h
          exact Option.bind_eq_some_iff.mpr ⟨p, he _ _ _ h1, hm _ _ _ _ h2⟩
        · rename_i hc; rw [if_neg hc]; exact h
      · split at h
        · rename_i hc
          rw [if_pos hc]
          obtain ⟨p, h1, h2⟩ := Option.bind_eq_some_iff.mp h
          exact Option.bind_eq_some_iff.mpr ⟨p, he _ _ _ h1, hm _ _ _ _ h2⟩
        · rename_i hc; rw [if_neg hc]; exact h
      · split at h
        · rename_i hc
          rw [if_pos hc]
          obtain ⟨p, h1, h2⟩ := Option.bind_eq_some_iff.mp h
          exact Option.bind_eq_some_iff.mpr ⟨p, he _ _ _ h1, hm _ _ _ _ h2⟩
        · rename_i hc; rw [if_neg hc]; exact h
      · split at h
        · rename_i hc
          rw [if_pos hc]
          obtain ⟨p, h1, h2⟩ := Option.bind_eq_some_iff.mp h
          exact Option.bind_eq_some_iff.mpr ⟨p, he _ _ _ h1, hm _ _ _ _ h2⟩
        · rename_i hc; rw [if_neg hc]; exact h
      · split at h
        · rename_i hc
          rw [if_pos hc]
          obtain ⟨p, h1, h2⟩ := Option.bind_eq_some_iff.mp h
          refine Option.bind_eq_some_iff.mpr ⟨p, he _ _ _ h1, ?_⟩
          split at h2
          · obtain ⟨q, h3, h4⟩ := Option.bind_eq_some_iff.mp h2
            exact Option.bind_eq_some_iff.mpr ⟨q, he _ _ _ h3, hm _ _ _ _ h4⟩
          · cases h2
        · rename_i hc; rw [if_neg hc]; exact h
      · split at h
        · exact hm _ _ _ _ h
        · cases h
      · obtain ⟨p, h1, h2⟩ := Option.bind_eq_some_iff.mp h
        exact Option.bind_eq_some_iff.mpr ⟨p, ha _ _ h1, hm _ _ _ _ h2⟩
      · obtain ⟨p, h1, h2⟩ := Option.bind_eq_some_iff.mp h
        exact Option.bind_eq_some_iff.mpr ⟨p, hsub _ _ _ h1, hm _ _ _ _ h2⟩
      · exact h
    · intro ts r h
      rw [args.eq_def] at h ⊢
      simp only [] at h ⊢
      split at h
      · exact h
      · exact hl _ _ h
    · intro ts r h
      rw [argList] at h ⊢
      obtain ⟨p, h1, h2⟩ := Option.bind_eq_some_iff.mp h
      refine Option.bind_eq_some_iff.mpr ⟨p, he _ _ _ h1, ?_⟩
      split at h2
      · exact h2
      · obtain ⟨q, h3, h4⟩ := Option.map_eq_some_iff.mp h2
        exact Option.map_eq_some_iff.mpr ⟨q, hl _ _ h3, h4⟩
      · cases h2
    · intro l ts r h
      rw [subscript.eq_def] at h ⊢
      simp only [] at h ⊢
      split at h
      · obtain ⟨p, h1, h2⟩ := Option.bind_eq_some_iff.mp h
        exact Option.bind_eq_some_iff.mpr ⟨p, he _ _ _ h1, h2⟩
      · obtain ⟨p, h1, h2⟩ := Option.bind_eq_some_iff.mp h
        refine Option.bind_eq_some_iff.mpr ⟨p, he _ _ _ h1, ?_⟩
        split at h2
        · exact h2
        · exact hse _ _ _ _ h2
        · cases h2
    · intro l a ts r h
      rw [sliceEnd.eq_def] at h ⊢
      simp only [] at h ⊢
      split at h
      · exact h
      · obtain ⟨p, h1, h2⟩ := Option.bind_eq_some_iff.mp h
        exact Option.bind_eq_some_iff.mpr ⟨p, he _ _ _ h1, h2⟩

theorem mono_expr {f f' m ts r} (hf : f ≤ f') (h : expr f m ts = some r) : expr f' m ts = some r := by
  induction hf with
  | refl => exact h
  | step _ ih => exact (mono_all _).1 _ _ _ ih
theorem mono_start {f f' m ts r} (hf : f ≤ f') (h : start f m ts = some r) : start f' m ts = some r := by
  induction hf with
  | refl => exact h
  | step _ ih => exact (mono_all _).2.1 _ _ _ ih
theorem mono_more {f f' m l ts r} (hf : f ≤ f') (h : more f m l ts = some r) : more f' m l ts = some r := by
  induction hf with
  | refl => exact h
  | step _ ih => exact (mono_all _).2.2.1 _ _ _ _ ih
theorem mono_args {f f' ts r} (hf : f ≤ f') (h : args f ts = some r) : args f' ts = some r := by
  induction hf with
  | refl => exact h
  | step _ ih => exact (mono_all _).2.2.2.1 _ _ ih
theorem mono_argList {f f' ts r} (hf : f ≤ f') (h : argList f ts = some r) : argList f' ts = some r := by
  induction hf with
  | refl => exact h
  | step _ ih => exact (mono_all _).2.2.2.2.1 _ _ ih
theorem mono_subscript {f f' l ts r} (hf : f ≤ f') (h : subscript f l ts = some r) : subscript f' l ts = some r := by
  induction hf with
  | refl => exact h
  | step _ ih => exact (mono_all _).2.2.2.2.2.1 _ _ _ ih
theorem mono_sliceEnd {f f' l a ts r} (hf : f ≤ f') (h : sliceEnd f l a ts = some r) : sliceEnd f' l a ts = some r := by
  induction hf with
  | refl => exact h
  | step _ ih => exact (mono_all _).2.2.2.2.2.2 _ _ _ _ ih

theorem reads_det {ts : List Tok} {p p' : PyE} (h : Reads ts p) (h' : Reads ts p') : p = p' := by
  obtain ⟨f, h⟩ := h
  obtain ⟨f', h'⟩ := h'
  have h1 := mono_expr (Nat.le_max_left f f') h
  have h2 := mono_expr (Nat.le_max_right f f') h'
  rw [h1] at h2
  injection h2 with h2
  injection h2 with h2 _

/-! ### Token sequences of known strength -/

/-- Operators up to this strength (exclusive) may follow. -/
def tl : Nat → Nat
  | 0 => 0
  | 3 => 3
  | 11 => 11
  | 12 => 11
  | k => k + 1

/-- The tokens do not go on with an operator of strength `t` or more. -/
def Stops (t : Nat) : List Tok → Prop
  | .bin o :: _ => level o < t
  | .cmp _ :: _ => 4 < t
  | .and :: _ => 2 < t
  | .or :: _ => 1 < t
  | .ifT :: _ => 0 < t
  | .dot :: _ => 13 < t
  | .lp :: _ => 13 < t
  | .lb :: _ => 13 < t
  | _ => True

theorem stops_mono {t t' : Nat} (ht : t ≤ t') {ts : List Tok} (h : Stops t ts) : Stops t' ts := by
  cases ts with
  | nil => trivial
  | cons a r => cases a <;> simp only [Stops] at h ⊢ <;> omega

theorem more_stops {m : Nat} (hm : m ≤ 13) {l : PyE} {ts : List Tok} (h : Stops m ts) : more 1 m l ts = some (l, ts) := by
  cases ts with
  | nil => rfl
  | cons a r =>
    cases a <;> simp only [Stops] at h <;> rw [more.eq_def] <;> simp only []
    all_goals first | (rw [if_neg (by omega)]) | omega

mutual
/-- `Prints k ts p`: the tokens `ts` are an expression of strength `k`. -/
inductive Prints : Nat → List Tok → PyE → Prop
  | name {s} : Prints 13 [.name s] (.name s)
  | int {n} : Prints 13 [.int n] (.int n)
  | str {s} : Prints 13 [.str s] (.str s)
  | paren {k ts p} : Prints k ts p → Prints 13 (.lp :: (ts ++ [.rp])) (.paren p)
  | neg {k ts p} : 11 ≤ k → Prints k ts p → Prints 11 (.bin .sub :: ts) (.neg p)
  | inv {k ts p} : 11 ≤ k → Prints k ts p → Prints 11 (.tilde :: ts) (.inv p)
  | not {k ts p} : 3 ≤ k → Prints k ts p → Prints 3 (.not :: ts) (.not p)
  | bin {o kl kr tsl tsr l r} : level o ≤ kl → level o < tl kl → rightLevel o ≤ kr → Prints kl tsl l → Prints kr tsr r →
      Prints (level o) (tsl ++ .bin o :: tsr) (.bin o l r)
  | cmp {o kl kr tsl tsr l r} : 5 ≤ kl → 5 ≤ kr → Prints kl tsl l → Prints kr tsr r →
      Prints 4 (tsl ++ .cmp o :: tsr) (.cmp l o r)
  | chain {o kr tsl tsr l r} : isCmp l = true → 5 ≤ kr → Prints 4 tsl l → Prints kr tsr r →
      Prints 4 (tsl ++ .cmp o :: tsr) (.chain l o r)
  | and {kl kr tsl tsr l r} : 2 ≤ kl → 3 ≤ kr → Prints kl tsl l → Prints kr tsr r →
      Prints 2 (tsl ++ .and :: tsr) (.and l r)
  | or {kl kr tsl tsr l r} : 1 ≤ kl → 2 ≤ kr → Prints kl tsl l → Prints kr tsr r →
      Prints 1 (tsl ++ .or :: tsr) (.or l r)
  | ite {kt kc kf tt tc tf t c f} : 1 ≤ kt → 1 ≤ kc → Prints kt tt t → Prints kc tc c → Prints kf tf f →
      Prints 0 (tt ++ .ifT :: (tc ++ .elseT :: tf)) (.ite t c f)
  | attr {ts p s} : Prints 13 ts p → Prints 13 (ts ++ [.dot, .name s]) (.attr p s)
  | call {ts p as ps} : Prints 13 ts p → PrintsArgs as ps → Prints 13 (ts ++ .lp :: (as ++ [.rp])) (.call p ps)
  | index {ts p k as q} : Prints 13 ts p → Prints k as q → Prints 13 (ts ++ .lb :: (as ++ [.rb])) (.index p q)
  | sliceFrom {ts p k as q} : Prints 13 ts p → Prints k as q →
      Prints 13 (ts ++ .lb :: (as ++ [.colon, .rb])) (.sliceFrom p q)
  | sliceTo {ts p k as q} : Prints 13 ts p → Prints k as q →
      Prints 13 (ts ++ .lb :: .colon :: (as ++ [.rb])) (.sliceTo p q)
  | slice {ts p k as q k' bs q'} : Prints 13 ts p → Prints k as q → Prints k' bs q' →
      Prints 13 (ts ++ .lb :: (as ++ .colon :: (bs ++ [.rb]))) (.slice p q q')
inductive PrintsArgs : List Tok → List PyE → Prop
  | nil : PrintsArgs [] []
  | one {k ts p} : Prints k ts p → PrintsArgs ts [p]
  | cons {k ts p as q qs} : Prints k ts p → PrintsArgs as (q :: qs) → PrintsArgs (ts ++ .comma :: as) (p :: q :: qs)
end

/-- What an expression can begin with. -/
def goodHead : List Tok → Bool
  | .name _ :: _ => true
  | .int _ :: _ => true
  | .str _ :: _ => true
  | .lp :: _ => true
  | .bin .sub :: _ => true
  | .tilde :: _ => true
  | .not :: _ => true
  | _ => false

theorem goodHead_append {a b : List Tok} (h : goodHead a = true) : goodHead (a ++ b) = true := by
  cases a with
  | nil => cases h
  | cons t r =>
    cases t <;> first | rfl | cases h | skip
    rename_i o
    cases o <;> first | rfl | cases h

theorem prints_head {k ts p} : Prints k ts p → goodHead ts = true
  | .name => rfl
  | .int => rfl
  | .str => rfl
  | .paren _ => rfl
  | .neg _ _ => rfl
  | .inv _ _ => rfl
  | .not _ _ => rfl
  | .bin _ _ _ h _ => goodHead_append (prints_head h)
  | .cmp _ _ h _ => goodHead_append (prints_head h)
  | .chain _ _ h _ => goodHead_append (prints_head h)
  | .and _ _ h _ => goodHead_append (prints_head h)
  | .or _ _ h _ => goodHead_append (prints_head h)
  | .ite _ _ h _ _ => goodHead_append (prints_head h)
  | .attr h => goodHead_append (prints_head h)
  | .call h _ => goodHead_append (prints_head h)
  | .index h _ => goodHead_append (prints_head h)
  | .sliceFrom h _ => goodHead_append (prints_head h)
  | .sliceTo h _ => goodHead_append (prints_head h)
  | .slice h _ _ => goodHead_append (prints_head h)

theorem level_ne4 (o : BinOp) : level o ≠ 4 := by cases o <;> decide

theorem prints_le {k ts p} (h : Prints k ts p) : k ≤ 13 := by
  cases h <;> first | decide | (rename_i o _ _ _ _ _ _ _ _ _ _ _; cases o <;> decide)

theorem prints_cmp {k ts p} (h : Prints k ts p) (hc : isCmp p = true) : k = 4 := by
  cases h <;> first | rfl | cases hc

/-! ### The reader accepts them -/

theorem expr_of_start {f f' m ts p rest r} (h : start f m ts = some (p, rest)) (h' : more f' m p rest = some r) :
    ∃ f, expr f m ts = some r := by
  refine ⟨max f f' + 1, ?_⟩
  rw [expr, mono_start (Nat.le_max_left f f') h]
  exact mono_more (Nat.le_max_right f f') h'

theorem tl_pos {k : Nat} (h : 1 ≤ k) : 0 < tl k := by
  unfold tl; split <;> omega
theorem tl_ge {k m : Nat} (h : m < k) (h13 : k ≤ 13) (hm : m ≠ 11) : m < tl k := by
  unfold tl; split <;> omega
theorem tl_13 : tl 13 = 14 := rfl

theorem stops_rp (t : Nat) (r : List Tok) : Stops t (.rp :: r) := trivial
theorem stops_rb (t : Nat) (r : List Tok) : Stops t (.rb :: r) := trivial
theorem stops_comma (t : Nat) (r : List Tok) : Stops t (.comma :: r) := trivial
theorem stops_colon (t : Nat) (r : List Tok) : Stops t (.colon :: r) := trivial
theorem stops_else (t : Nat) (r : List Tok) : Stops t (.elseT :: r) := trivial

mutual
theorem sound {k ts p} : Prints k ts p → ∀ m rest r, m ≤ k → Stops (tl k) rest →
    (∃ f, more f m p rest = some r) → ∃ f, expr f m (ts ++ rest) = some r
  | .name, m, rest, r, _, _, ⟨f, h⟩ => expr_of_start (f := 1) (m := m) rfl h
  | .int, m, rest, r, _, _, ⟨f, h⟩ => expr_of_start (f := 1) (m := m) rfl h
  | .str, m, rest, r, _, _, ⟨f, h⟩ => expr_of_start (f := 1) (m := m) rfl h
  | .paren (k := k) (ts := ts) (p := p) hp, m, rest, r, _, _, ⟨f, h⟩ => by
    obtain ⟨f1, h1⟩ := sound hp 0 (.rp :: rest) _ (Nat.zero_le _) (stops_rp _ _) ⟨1, more_stops (by omega) (stops_rp _ _)⟩
    refine expr_of_start (f := f1 + 1) (p := .paren p) (rest := rest) ?_ h
    rw [List.cons_append, List.append_assoc, start.eq_def]
    simp only [List.cons_append, List.nil_append]
    rw [h1]
    rfl
  | .neg (k := k) (ts := ts) (p := p) hk hp, m, rest, r, _, hs, ⟨f, h⟩ => by
    have hk13 := prints_le hp
    have hs11 : Stops 11 rest := hs
    obtain ⟨f1, h1⟩ := sound hp 11 rest _ hk (stops_mono (by unfold tl; split <;> omega) hs11) ⟨1, more_stops (by omega) hs11⟩
    refine expr_of_start (f := f1 + 1) (p := .neg p) (rest := rest) ?_ h
    rw [List.cons_append, start.eq_def]
    simp only []
    rw [h1]
    rfl
  | .inv (k := k) (ts := ts) (p := p) hk hp, m, rest, r, _, hs, ⟨f, h⟩ => by
    have hk13 := prints_le hp
    have hs11 : Stops 11 rest := hs
    obtain ⟨f1, h1⟩ := sound hp 11 rest _ hk (stops_mono (by unfold tl; split <;> omega) hs11) ⟨1, more_stops (by omega) hs11⟩
    refine expr_of_start (f := f1 + 1) (p := .inv p) (rest := rest) ?_ h
    rw [List.cons_append, start.eq_def]
    simp only []
    rw [h1]
    rfl
  | .not (k := k) (ts := ts) (p := p) hk hp, m, rest, r, hm, hs, ⟨f, h⟩ => by
    have hk13 := prints_le hp
    have hs3 : Stops 3 rest := hs
    obtain ⟨f1, h1⟩ := sound hp 3 rest _ hk (stops_mono (by unfold tl; split <;> omega) hs3) ⟨1, more_stops (by omega) hs3⟩
    refine expr_of_start (f := f1 + 1) (p := .not p) (rest := rest) ?_ h
    rw [List.cons_append, start.eq_def]
    simp only []
    rw [if_pos hm, h1]
    rfl
  | .bin (o := o) (kl := kl) (kr := kr) (tsl := tsl) (tsr := tsr) (l := l) (r := r0) hl1 hl2 hr hpl hpr, m, rest, r, hm, hs, ⟨f, h⟩ => by
    have hk13 := prints_le hpr
    have hs1 : Stops (rightLevel o) rest := by revert hs; cases o <;> exact id
    have hs2 : Stops (tl kr) rest := by
      refine stops_mono ?_ hs1
      revert hr; cases o <;> simp only [rightLevel, level] <;> intro hr <;> unfold tl <;> split <;> omega
    have hr13 : rightLevel o ≤ 13 := by cases o <;> decide
    obtain ⟨f1, h1⟩ := sound hpr (rightLevel o) rest _ hr hs2 ⟨1, more_stops hr13 hs1⟩
    rw [List.append_assoc]
    refine sound hpl m _ r (Nat.le_trans hm hl1) hl2 ⟨max f1 f + 1, ?_⟩
    rw [List.cons_append, more.eq_def]
    simp only []
    rw [if_pos hm, mono_expr (Nat.le_max_left f1 f) h1]
    exact mono_more (Nat.le_max_right f1 f) h
  | .cmp (o := o) (kl := kl) (kr := kr) (tsl := tsl) (tsr := tsr) (l := l) (r := r0) hl hr hpl hpr, m, rest, r, hm, hs, ⟨f, h⟩ => by
    have hk13 := prints_le hpr
    have hkl13 := prints_le hpl
    have hs1 : Stops 5 rest := hs
    obtain ⟨f1, h1⟩ := sound hpr 5 rest _ hr (stops_mono (by have := tl_ge (m := 4) (k := kr) (by omega) hk13 (by decide); omega) hs1)
      ⟨1, more_stops (by omega) hs1⟩
    have hc : isCmp l = false := by
      cases hcc : isCmp l with
      | false => rfl
      | true => have := prints_cmp hpl hcc; omega
    rw [List.append_assoc]
    refine sound hpl m _ r (by omega) (tl_ge (by omega) hkl13 (by decide)) ⟨max f1 f + 1, ?_⟩
    rw [List.cons_append, more.eq_def]
    simp only []
    rw [if_pos hm, mono_expr (Nat.le_max_left f1 f) h1, hc]
    exact mono_more (Nat.le_max_right f1 f) h
  | .chain (o := o) (kr := kr) (tsl := tsl) (tsr := tsr) (l := l) (r := r0) hc hr hpl hpr, m, rest, r, hm, hs, ⟨f, h⟩ => by
    have hk13 := prints_le hpr
    have hs1 : Stops 5 rest := hs
    obtain ⟨f1, h1⟩ := sound hpr 5 rest _ hr (stops_mono (by have := tl_ge (m := 4) (k := kr) (by omega) hk13 (by decide); omega) hs1)
      ⟨1, more_stops (by omega) hs1⟩
    rw [List.append_assoc]
    refine sound hpl m _ r (by omega) (show 4 < 5 by decide) ⟨max f1 f + 1, ?_⟩
    rw [List.cons_append, more.eq_def]
    simp only []
    rw [if_pos hm, mono_expr (Nat.le_max_left f1 f) h1, hc]
    exact mono_more (Nat.le_max_right f1 f) h
  | .and (kl := kl) (kr := kr) (tsl := tsl) (tsr := tsr) (l := l) (r := r0) hl hr hpl hpr, m, rest, r, hm, hs, ⟨f, h⟩ => by
    have hk13 := prints_le hpr
    have hkl13 := prints_le hpl
    have hs1 : Stops 3 rest := hs
    obtain ⟨f1, h1⟩ := sound hpr 3 rest _ hr (stops_mono (by have := tl_ge (m := 2) (k := kr) (by omega) hk13 (by decide); omega) hs1)
      ⟨1, more_stops (by omega) hs1⟩
    rw [List.append_assoc]
    refine sound hpl m _ r (by omega) (show 2 < tl kl from ?_) ⟨max f1 f + 1, ?_⟩
    · rcases Nat.lt_or_ge 2 kl with h2 | h2
      · exact tl_ge h2 hkl13 (by decide)
      · have : kl = 2 := by omega
        subst this; decide
    · rw [List.cons_append, more.eq_def]
      simp only []
      rw [if_pos hm, mono_expr (Nat.le_max_left f1 f) h1]
      exact mono_more (Nat.le_max_right f1 f) h
  | .or (kl := kl) (kr := kr) (tsl := tsl) (tsr := tsr) (l := l) (r := r0) hl hr hpl hpr, m, rest, r, hm, hs, ⟨f, h⟩ => by
    have hk13 := prints_le hpr
    have hkl13 := prints_le hpl
    have hs1 : Stops 2 rest := hs
    obtain ⟨f1, h1⟩ := sound hpr 2 rest _ hr (stops_mono (by have := tl_ge (m := 1) (k := kr) (by omega) hk13 (by decide); omega) hs1)
      ⟨1, more_stops (by omega) hs1⟩
    rw [List.append_assoc]
    refine sound hpl m _ r (by omega) (show 1 < tl kl from ?_) ⟨max f1 f + 1, ?_⟩
    · rcases Nat.lt_or_ge 1 kl with h2 | h2
      · exact tl_ge h2 hkl13 (by decide)
      · have : kl = 1 := by omega
        subst this; decide
    · rw [List.cons_append, more.eq_def]
      simp only []
      rw [if_pos hm, mono_expr (Nat.le_max_left f1 f) h1]
      exact mono_more (Nat.le_max_right f1 f) h
  | .ite (kt := kt) (kc := kc) (kf := kf) (tt := tt) (tc := tc) (tf := tf) (t := t) (c := c) (f := f0) hkt hkc hpt hpc hpf, m, rest, r, hm, hs, ⟨f, h⟩ => by
    have hs0 : Stops 0 rest := hs
    obtain ⟨f1, h1⟩ := sound hpc 1 (.elseT :: (tf ++ rest)) _ hkc (stops_else _ _) ⟨1, more_stops (by omega) (stops_else _ _)⟩
    obtain ⟨f2, h2⟩ := sound hpf 0 rest _ (Nat.zero_le _) (stops_mono (Nat.zero_le _) hs0) ⟨1, more_stops (by omega) hs0⟩
    rw [List.append_assoc]
    refine sound hpt m _ r (by omega) (show 0 < tl kt from tl_pos hkt) ⟨max f1 (max f2 f) + 1, ?_⟩
    rw [List.cons_append, List.append_assoc, List.cons_append, more.eq_def]
    simp only []
    rw [if_pos (by omega), mono_expr (Nat.le_max_left f1 _) h1]
    simp only [Option.bind_some]
    rw [mono_expr (Nat.le_trans (Nat.le_max_left f2 f) (Nat.le_max_right f1 _)) h2]
    exact mono_more (Nat.le_trans (Nat.le_max_right f2 f) (Nat.le_max_right f1 _)) h
  | .attr (ts := ts) (p := p) (s := s) hp, m, rest, r, hm, hs, ⟨f, h⟩ => by
    rw [List.append_assoc]
    refine sound hp m _ r hm (show 13 < 14 by decide) ⟨f + 1, ?_⟩
    simp only [List.cons_append, List.nil_append]
    rw [more.eq_def]
    exact h
  | .call (ts := ts) (p := p) (as := as) (ps := ps) hp ha, m, rest, r, hm, hs, ⟨f, h⟩ => by
    obtain ⟨f1, h1⟩ := sound_args ha rest
    rw [List.append_assoc]
    refine sound hp m _ r hm (show 13 < 14 by decide) ⟨max f1 f + 1, ?_⟩
    rw [List.cons_append, List.append_assoc, more.eq_def]
    simp only [List.cons_append, List.nil_append]
    rw [mono_args (Nat.le_max_left f1 f) h1]
    exact mono_more (Nat.le_max_right f1 f) h
  | .index (ts := ts) (p := p) (k := k) (as := as) (q := q) hp ha, m, rest, r, hm, hs, ⟨f, h⟩ => by
    obtain ⟨f1, h1⟩ := sound ha 0 (.rb :: rest) _ (Nat.zero_le _) (stops_rb _ _) ⟨1, more_stops (by omega) (stops_rb _ _)⟩
    rw [List.append_assoc]
    refine sound hp m _ r hm (show 13 < 14 by decide) ⟨max (f1 + 1) f + 1, ?_⟩
    have hsub : subscript (f1 + 1) p (as ++ .rb :: rest) = some (.index p q, rest) := by
      have := prints_head ha
      rw [subscript.eq_def]
      simp only []
      split
      · rename_i heq; cases as with
        | nil => cases this
        | cons t as => rw [List.cons_append] at heq; injection heq with e1 _; subst e1; cases this
      · rw [h1]; rfl
    rw [List.cons_append, List.append_assoc, more.eq_def]
    simp only [List.cons_append, List.nil_append]
    rw [mono_subscript (Nat.le_max_left (f1 + 1) f) hsub]
    exact mono_more (Nat.le_max_right (f1 + 1) f) h
  | .sliceFrom (ts := ts) (p := p) (k := k) (as := as) (q := q) hp ha, m, rest, r, hm, hs, ⟨f, h⟩ => by
    obtain ⟨f1, h1⟩ := sound ha 0 (.colon :: .rb :: rest) _ (Nat.zero_le _) (stops_colon _ _)
      ⟨1, more_stops (by omega) (stops_colon _ _)⟩
    rw [List.append_assoc]
    refine sound hp m _ r hm (show 13 < 14 by decide) ⟨max (f1 + 2) f + 1, ?_⟩
    have hsub : subscript (f1 + 2) p (as ++ .colon :: .rb :: rest) = some (.sliceFrom p q, rest) := by
      have := prints_head ha
      rw [subscript.eq_def]
      simp only []
      split
      · rename_i heq; cases as with
        | nil => cases this
        | cons t as => rw [List.cons_append] at heq; injection heq with e1 _; subst e1; cases this
      · rw [mono_expr (Nat.le_succ f1) h1]; rfl
    rw [List.cons_append, List.append_assoc, more.eq_def]
    simp only [List.cons_append, List.nil_append]
    rw [mono_subscript (Nat.le_max_left (f1 + 2) f) hsub]
    exact mono_more (Nat.le_max_right (f1 + 2) f) h
  | .sliceTo (ts := ts) (p := p) (k := k) (as := as) (q := q) hp ha, m, rest, r, hm, hs, ⟨f, h⟩ => by
    obtain ⟨f1, h1⟩ := sound ha 0 (.rb :: rest) _ (Nat.zero_le _) (stops_rb _ _) ⟨1, more_stops (by omega) (stops_rb _ _)⟩
    rw [List.append_assoc]
    refine sound hp m _ r hm (show 13 < 14 by decide) ⟨max (f1 + 1) f + 1, ?_⟩
    have hsub : subscript (f1 + 1) p (.colon :: (as ++ .rb :: rest)) = some (.sliceTo p q, rest) := by
      rw [subscript.eq_def]
      simp only []
      rw [h1]; rfl
    rw [List.cons_append, List.cons_append, List.append_assoc, more.eq_def]
    simp only [List.cons_append, List.nil_append]
    rw [mono_subscript (Nat.le_max_left (f1 + 1) f) hsub]
    exact mono_more (Nat.le_max_right (f1 + 1) f) h
  | .slice (ts := ts) (p := p) (k := k) (as := as) (q := q) (k' := k') (bs := bs) (q' := q') hp ha hb, m, rest, r, hm, hs, ⟨f, h⟩ => by
    obtain ⟨f1, h1⟩ := sound ha 0 (.colon :: (bs ++ .rb :: rest)) _ (Nat.zero_le _) (stops_colon _ _)
      ⟨1, more_stops (by omega) (stops_colon _ _)⟩
    obtain ⟨f2, h2⟩ := sound hb 0 (.rb :: rest) _ (Nat.zero_le _) (stops_rb _ _) ⟨1, more_stops (by omega) (stops_rb _ _)⟩
    have hend : sliceEnd (f2 + 1) p q (bs ++ .rb :: rest) = some (.slice p q q', rest) := by
      have := prints_head hb
      rw [sliceEnd.eq_def]
      simp only []
      split
      · rename_i heq; cases bs with
        | nil => cases this
        | cons t bs => rw [List.cons_append] at heq; injection heq with e1 _; subst e1; cases this
      · rw [h2]; rfl
    have hsub : subscript (max f1 (f2 + 1) + 1) p (as ++ .colon :: (bs ++ .rb :: rest)) = some (.slice p q q', rest) := by
      have := prints_head ha
      rw [subscript.eq_def]
      simp only []
      split
      · rename_i heq; cases as with
        | nil => cases this
        | cons t as => rw [List.cons_append] at heq; injection heq with e1 _; subst e1; cases this
      · rw [mono_expr (Nat.le_max_left f1 (f2 + 1)) h1]
        exact mono_sliceEnd (Nat.le_max_right f1 (f2 + 1)) hend
    rw [List.append_assoc]
    refine sound hp m _ r hm (show 13 < 14 by decide) ⟨max (max f1 (f2 + 1) + 1) f + 1, ?_⟩
    rw [List.cons_append, List.append_assoc, List.cons_append, List.append_assoc, more.eq_def]
    simp only [List.cons_append, List.nil_append]
    rw [mono_subscript (Nat.le_max_left _ f) hsub]
    exact mono_more (Nat.le_max_right _ f) h
theorem sound_args {ts ps} : PrintsArgs ts ps → ∀ rest, ∃ f, args f (ts ++ .rp :: rest) = some (ps, rest)
  | .nil, rest => ⟨1, rfl⟩
  | .one (k := k) (ts := ts) (p := p) hp, rest => by
    obtain ⟨f1, h1⟩ := sound hp 0 (.rp :: rest) _ (Nat.zero_le _) (stops_rp _ _) ⟨1, more_stops (by omega) (stops_rp _ _)⟩
    refine ⟨f1 + 2, ?_⟩
    have := prints_head hp
    rw [args.eq_def]
    simp only []
    split
    · rename_i heq; cases ts with
      | nil => cases this
      | cons t ts => rw [List.cons_append] at heq; injection heq with e1 _; subst e1; cases this
    · rw [argList, h1]; rfl
  | .cons (k := k) (ts := ts) (p := p) (as := as) (q := q) (qs := qs) hp ha, rest => by
    obtain ⟨f1, h1⟩ := sound hp 0 (.comma :: (as ++ .rp :: rest)) _ (Nat.zero_le _) (stops_comma _ _)
      ⟨1, more_stops (by omega) (stops_comma _ _)⟩
    obtain ⟨f2, h2⟩ := sound_argList ha (List.cons_ne_nil _ _) rest
    refine ⟨max f1 f2 + 2, ?_⟩
    have := prints_head hp
    rw [List.append_assoc, args.eq_def]
    simp only [List.cons_append]
    split
    · rename_i heq; cases ts with
      | nil => cases this
      | cons t ts => rw [List.cons_append] at heq; injection heq with e1 _; subst e1; cases this
    · rw [argList, mono_expr (Nat.le_max_left f1 f2) h1]
      simp only [Option.bind_some]
      rw [mono_argList (Nat.le_max_right f1 f2) h2]
      rfl
theorem sound_argList {ts ps} : PrintsArgs ts ps → ps ≠ [] → ∀ rest, ∃ f, argList f (ts ++ .rp :: rest) = some (ps, rest)
  | .nil, h, _ => absurd rfl h
  | .one (k := k) (ts := ts) (p := p) hp, _, rest => by
    obtain ⟨f1, h1⟩ := sound hp 0 (.rp :: rest) _ (Nat.zero_le _) (stops_rp _ _) ⟨1, more_stops (by omega) (stops_rp _ _)⟩
    refine ⟨f1 + 1, ?_⟩
    rw [argList, h1]; rfl
  | .cons (k := k) (ts := ts) (p := p) (as := as) (q := q) (qs := qs) hp ha, _, rest => by
    obtain ⟨f1, h1⟩ := sound hp 0 (.comma :: (as ++ .rp :: rest)) _ (Nat.zero_le _) (stops_comma _ _)
      ⟨1, more_stops (by omega) (stops_comma _ _)⟩
    obtain ⟨f2, h2⟩ := sound_argList ha (List.cons_ne_nil _ _) rest
    refine ⟨max f1 f2 + 1, ?_⟩
    rw [List.append_assoc, List.cons_append, argList, mono_expr (Nat.le_max_left f1 f2) h1]
    simp only [Option.bind_some]
    rw [mono_argList (Nat.le_max_right f1 f2) h2]
    rfl
end

theorem prints_reads {k ts p} (h : Prints k ts p) : Reads ts p := by
  obtain ⟨f, hf⟩ := sound h 0 [] (p, []) (Nat.zero_le _) trivial ⟨1, rfl⟩
  rw [List.append_nil] at hf
  exact ⟨f, hf⟩

end Props.PyExprAux
