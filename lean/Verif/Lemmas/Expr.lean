import Verif.Lemmas.PyExpr
import Verif.Model.Expr
/-!
# Lemmas about converted expressions
-/
namespace Props.ExprAux
open PyExpr FoxExpr Expr Props.PyExprAux

variable {V : Type} {A : Alg V}

/-- The tokens read, at level `k` or tighter, as an expression of value `v`. -/
def Den (A : Alg V) (k : Nat) (ts : List Tok) (v : V) : Prop :=
  ∃ k' p, k ≤ k' ∧ Prints k' ts p ∧ eval A p = v

theorem Den.weak {k k' ts v} (h : Den A k ts v) (hk : k' ≤ k) : Den A k' ts v := by
  obtain ⟨a, p, ha, hp, hv⟩ := h
  exact ⟨a, p, Nat.le_trans hk ha, hp, hv⟩

theorem Den.name (s : String) : Den A 13 [.name s] (A.name s) := ⟨13, _, Nat.le_refl _, .name, by simp [eval]⟩
theorem Den.nat (n : Nat) : Den A 13 [.int n] (A.int n) := ⟨13, _, Nat.le_refl _, .int, by simp [eval]⟩
theorem Den.str (s : List Char) : Den A 13 [.str s] (A.str s) := ⟨13, _, Nat.le_refl _, .str, by simp [eval]⟩
theorem Den.paren {k ts v} (h : Den A k ts v) : Den A 13 (.lp :: (ts ++ [.rp])) v := by
  obtain ⟨a, p, ha, hp, hv⟩ := h
  exact ⟨13, _, Nat.le_refl _, .paren hp, by simpa [eval] using hv⟩
theorem Den.neg {ts v} (h : Den A 11 ts v) : Den A 11 (.bin .sub :: ts) (A.neg v) := by
  obtain ⟨a, p, ha, hp, hv⟩ := h
  exact ⟨11, _, Nat.le_refl _, .neg ha hp, by simp [eval, hv]⟩
theorem Den.inv {ts v} (h : Den A 11 ts v) : Den A 11 (.tilde :: ts) (A.inv v) := by
  obtain ⟨a, p, ha, hp, hv⟩ := h
  exact ⟨11, _, Nat.le_refl _, .inv ha hp, by simp [eval, hv]⟩
theorem Den.not {ts v} (h : Den A 3 ts v) : Den A 3 (.not :: ts) (A.notOf v) := by
  obtain ⟨a, p, ha, hp, hv⟩ := h
  exact ⟨3, _, Nat.le_refl _, .not ha hp, by simp [eval, hv]⟩

theorem tl_level {o : BinOp} {k : Nat} (ho : o ≠ .pow) (h : level o ≤ k) (hk : k ≤ 13) : level o < tl k := by
  revert h; cases o <;> simp only [level] <;> intro h <;> first | (exact absurd rfl ho) | skip
  all_goals unfold tl; split <;> omega

theorem Den.bin {o tsl tsr l r} (ho : o ≠ BinOp.pow) (hl : Den A (level o) tsl l) (hr : Den A (level o + 1) tsr r) :
    Den A (level o) (tsl ++ .bin o :: tsr) (A.bin o l r) := by
  obtain ⟨a, p, ha, hp, hv⟩ := hl
  obtain ⟨b, q, hb, hq, hw⟩ := hr
  refine ⟨level o, _, Nat.le_refl _, .bin ha (tl_level ho ha (prints_le hp)) ?_ hp hq, by simp [eval, hv, hw]⟩
  revert hb; cases o <;> first | (exact absurd rfl ho) | exact id
theorem Den.pow {tsl tsr l r} (hl : Den A 13 tsl l) (hr : Den A 11 tsr r) :
    Den A 12 (tsl ++ .bin .pow :: tsr) (A.bin .pow l r) := by
  obtain ⟨a, p, ha, hp, hv⟩ := hl
  obtain ⟨b, q, hb, hq, hw⟩ := hr
  have : a = 13 := by have := prints_le hp; omega
  subst this
  exact ⟨12, _, Nat.le_refl _, .bin (o := .pow) (by decide) (by decide) hb hp hq, by simp [eval, hv, hw]⟩
theorem Den.cmp {o tsl tsr l r} (hl : Den A 5 tsl l) (hr : Den A 5 tsr r) :
    Den A 4 (tsl ++ .cmp o :: tsr) (A.cmp o l r) := by
  obtain ⟨a, p, ha, hp, hv⟩ := hl
  obtain ⟨b, q, hb, hq, hw⟩ := hr
  exact ⟨4, _, Nat.le_refl _, .cmp ha hb hp hq, by simp [eval, hv, hw]⟩
theorem Den.chain {o o' tsl tsm tsr l m r} (hl : Den A 5 tsl l) (hm : Den A 5 tsm m) (hr : Den A 5 tsr r) :
    Den A 4 ((tsl ++ .cmp o :: tsm) ++ .cmp o' :: tsr) (A.choose (A.cmp o l m) (A.cmp o' m r) (A.cmp o l m)) := by
  obtain ⟨a, p, ha, hp, hv⟩ := hl
  obtain ⟨b, q, hb, hq, hw⟩ := hr
  obtain ⟨c, t, hc, ht, hu⟩ := hm
  exact ⟨4, _, Nat.le_refl _, .chain rfl hb (.cmp ha hc hp ht) hq, by simp [eval, lastOf, hv, hw, hu]⟩
theorem Den.ite {tt tc tf t c f} (ht : Den A 1 tt t) (hc : Den A 1 tc c) (hf : Den A 0 tf f) :
    Den A 0 (tt ++ .ifT :: (tc ++ .elseT :: tf)) (A.choose c t f) := by
  obtain ⟨a, p, ha, hp, hv⟩ := ht
  obtain ⟨b, q, hb, hq, hw⟩ := hc
  obtain ⟨c', r, hc', hr, hu⟩ := hf
  exact ⟨0, _, Nat.le_refl _, .ite ha hb hp hq hr, by simp [eval, hv, hw, hu]⟩

theorem prints13 {k ts p} (h : Prints k ts p) (hk : 13 ≤ k) : Prints 13 ts p := by
  have : k = 13 := by have := prints_le h; omega
  exact this ▸ h

theorem Den.attr {ts v} (s : String) (h : Den A 13 ts v) : Den A 13 (ts ++ [.dot, .name s]) (A.attr v s) := by
  obtain ⟨a, p, ha, hp, hv⟩ := h
  exact ⟨13, _, Nat.le_refl _, .attr (prints13 hp ha), by simp [eval, hv]⟩
theorem Den.index {ts v k as i} (h : Den A 13 ts v) (hi : Den A k as i) :
    Den A 13 (ts ++ .lb :: (as ++ [.rb])) (A.index v i) := by
  obtain ⟨a, p, ha, hp, hv⟩ := h
  obtain ⟨b, q, hb, hq, hw⟩ := hi
  exact ⟨13, _, Nat.le_refl _, .index (prints13 hp ha) hq, by simp [eval, hv, hw]⟩
theorem Den.sliceFrom {ts v k as i} (h : Den A 13 ts v) (hi : Den A k as i) :
    Den A 13 (ts ++ .lb :: (as ++ [.colon, .rb])) (A.sliceFrom v i) := by
  obtain ⟨a, p, ha, hp, hv⟩ := h
  obtain ⟨b, q, hb, hq, hw⟩ := hi
  exact ⟨13, _, Nat.le_refl _, .sliceFrom (prints13 hp ha) hq, by simp [eval, hv, hw]⟩
theorem Den.sliceTo {ts v k as i} (h : Den A 13 ts v) (hi : Den A k as i) :
    Den A 13 (ts ++ .lb :: .colon :: (as ++ [.rb])) (A.sliceTo v i) := by
  obtain ⟨a, p, ha, hp, hv⟩ := h
  obtain ⟨b, q, hb, hq, hw⟩ := hi
  exact ⟨13, _, Nat.le_refl _, .sliceTo (prints13 hp ha) hq, by simp [eval, hv, hw]⟩
theorem Den.slice {ts v k as i k' bs j} (h : Den A 13 ts v) (hi : Den A k as i) (hj : Den A k' bs j) :
    Den A 13 (ts ++ .lb :: (as ++ .colon :: (bs ++ [.rb]))) (A.slice v i j) := by
  obtain ⟨a, p, ha, hp, hv⟩ := h
  obtain ⟨b, q, hb, hq, hw⟩ := hi
  obtain ⟨c, r, hc, hr, hu⟩ := hj
  exact ⟨13, _, Nat.le_refl _, .slice (prints13 hp ha) hq hr, by simp [eval, hv, hw, hu]⟩

/-! ### Arguments -/

/-- Texts of arguments with their values. -/
inductive Dens (A : Alg V) : List (List Tok) → List V → Prop
  | nil : Dens A [] []
  | cons {k ts v tss vs} : Den A k ts v → Dens A tss vs → Dens A (ts :: tss) (v :: vs)

theorem Dens.args {tss vs} (h : Dens A tss vs) :
    ∃ ps, PrintsArgs (commas tss) ps ∧ evals A ps = vs ∧ ps.length = tss.length := by
  induction h with
  | nil => exact ⟨[], .nil, rfl, rfl⟩
  | @cons k ts v tss vs hd hs ih =>
    obtain ⟨a, p, ha, hp, hv⟩ := hd
    obtain ⟨ps, hps, hvs, hlen⟩ := ih
    cases hs with
    | nil =>
      cases ps with
      | nil => exact ⟨[p], .one hp, by simp [evals, hv], rfl⟩
      | cons q qs => cases hlen
    | cons h1 h2 =>
      cases ps with
      | nil => cases hlen
      | cons q qs => exact ⟨p :: q :: qs, .cons hp hps, by rw [evals, hv, hvs], by simpa using hlen⟩

theorem Den.call {f v tss vs} (h : Den A 13 f v) (hs : Dens A tss vs) :
    Den A 13 (f ++ .lp :: (commas tss ++ [.rp])) (A.call v vs) := by
  obtain ⟨a, p, ha, hp, hv⟩ := h
  obtain ⟨ps, hps, hvs, _⟩ := hs.args
  exact ⟨13, _, Nat.le_refl _, .call (prints13 hp ha) hps, by simp [eval, hv, hvs]⟩

/-! ### Chains of `or` and `and` -/

theorem or_chain : ∀ n {k ts p}, ts.length ≤ n → Prints k ts p → 1 ≤ k → ∀ tsl vl, Den A 1 tsl vl →
    Den A 1 (tsl ++ .or :: ts) (A.choose vl vl (eval A p))
  | 0, k, ts, p, hn, hp, _ => by
    have := prints_head hp
    cases ts with
    | nil => cases this
    | cons t ts => simp at hn
  | n + 1, k, ts, p, hn, hp, hk => by
    intro tsl vl hl
    rcases Nat.lt_or_ge 1 k with h2 | h2
    · obtain ⟨a, q, ha, hq, hv⟩ := hl
      exact ⟨1, _, Nat.le_refl _, .or ha h2 hq hp, by simp [eval, hv]⟩
    · have hk1 : k = 1 := by omega
      generalize hk' : k = k' at hp
      cases hp <;> first | (exfalso; omega) | skip
      case bin o _ _ _ _ _ _ _ _ _ _ _ => cases o <;> simp [level] at hk' <;> omega
      case or kl kr ts1 ts2 l r h1 h2 hp1 hp2 =>
        have hlen : ts1.length ≤ n := by simp at hn; omega
        obtain ⟨a, q, ha, hq, hv⟩ := or_chain n hlen hp1 h1 _ _ hl
        refine ⟨1, .or q r, Nat.le_refl _, ?_, ?_⟩
        · have := Prints.or ha h2 hq hp2
          rwa [List.append_assoc, List.cons_append] at this
        · simp only [eval, hv]
          unfold Alg.choose
          by_cases hr : A.raises vl = true
          · simp [hr]
          · by_cases hvl : A.truth vl = true
            · simp [hr, hvl]
            · simp only [hr, hvl]; simp

theorem and_chain : ∀ n {k ts p}, ts.length ≤ n → Prints k ts p → 2 ≤ k → ∀ tsl vl, Den A 2 tsl vl →
    Den A 2 (tsl ++ .and :: ts) (A.choose vl (eval A p) vl)
  | 0, k, ts, p, hn, hp, _ => by
    have := prints_head hp
    cases ts with
    | nil => cases this
    | cons t ts => simp at hn
  | n + 1, k, ts, p, hn, hp, hk => by
    intro tsl vl hl
    rcases Nat.lt_or_ge 2 k with h2 | h2
    · obtain ⟨a, q, ha, hq, hv⟩ := hl
      exact ⟨2, _, Nat.le_refl _, .and ha h2 hq hp, by simp [eval, hv]⟩
    · have hk1 : k = 2 := by omega
      generalize hk' : k = k' at hp
      cases hp <;> first | (exfalso; omega) | skip
      case bin o _ _ _ _ _ _ _ _ _ _ _ => cases o <;> simp [level] at hk' <;> omega
      case and kl kr ts1 ts2 l r h1 h2 hp1 hp2 =>
        have hlen : ts1.length ≤ n := by simp at hn; omega
        obtain ⟨a, q, ha, hq, hv⟩ := and_chain n hlen hp1 h1 _ _ hl
        refine ⟨2, .and q r, Nat.le_refl _, ?_, ?_⟩
        · have := Prints.and ha h2 hq hp2
          rwa [List.append_assoc, List.cons_append] at this
        · simp only [eval, hv]
          unfold Alg.choose
          by_cases hr : A.raises vl = true
          · simp [hr]
          · by_cases hvl : A.truth vl = true
            · simp [hr, hvl]
            · simp [hr, hvl]

theorem Den.or {tsl tsr l r} (hl : Den A 1 tsl l) (hr : Den A 1 tsr r) :
    Den A 1 (tsl ++ .or :: tsr) (A.choose l l r) := by
  obtain ⟨b, q, hb, hq, hw⟩ := hr
  exact hw ▸ or_chain _ (Nat.le_refl _) hq hb _ _ hl
theorem Den.and {tsl tsr l r} (hl : Den A 2 tsl l) (hr : Den A 2 tsr r) :
    Den A 2 (tsl ++ .and :: tsr) (A.choose l r l) := by
  obtain ⟨b, q, hb, hq, hw⟩ := hr
  exact hw ▸ and_chain _ (Nat.le_refl _) hq hb _ _ hl

theorem Den.reads {k ts v} (h : Den A k ts v) : ∃ p, Reads ts p ∧ eval A p = v := by
  obtain ⟨a, p, ha, hp, hv⟩ := h
  exact ⟨p, prints_reads hp, hv⟩

theorem Den.det {k k' ts v w} (h : Den A k ts v) (h' : Den A k' ts w) : v = w := by
  obtain ⟨_, p, _, hp, hv⟩ := h
  obtain ⟨_, q, _, hq, hw⟩ := h'
  rw [← hv, ← hw, reads_det (prints_reads hp) (prints_reads hq)]

/-! ### Converted values -/

/-- A converted value stands for `x`: constants are that constant, and the text
reads as an expression of that value. -/
structure Conv (A : Alg V) (k : Nat) (v : Py) (x : V) : Prop where
  int : ∀ n, v = .int n → x = A.int n
  str : ∀ s, v = .str s → x = A.str s
  bool : ∀ b, v = .bool b → x = A.ofBool b
  den : Den A k (pyRepr v) x

theorem Conv.weak {k k' v x} (h : Conv A k v x) (hk : k' ≤ k) : Conv A k' v x := { h with den := h.den.weak hk }

theorem repr_code (ts : List Tok) : pyRepr (.code ts) = ts := by simp [pyRepr]

theorem Conv.code {k ts x} (h : Den A k ts x) : Conv A k (.code ts) x where
  int := nofun
  str := nofun
  bool := nofun
  den := by rw [repr_code]; exact h

theorem den_int (L : Laws A) (n : Int) : Den A 11 (intToks n) (A.int n) := by
  unfold intToks
  split
  · have := Den.neg ((Den.nat (A := A) n.natAbs).weak (show 11 ≤ 13 by decide))
    rw [L.negInt] at this
    have hn : -(n.natAbs : Int) = n := by omega
    rwa [hn] at this
  · have := (Den.nat (A := A) n.natAbs).weak (show 11 ≤ 13 by decide)
    have hn : (n.natAbs : Int) = n := by omega
    rwa [hn] at this

theorem Conv.mkInt (L : Laws A) (n : Int) : Conv A 11 (.int n) (A.int n) where
  int := fun m h => by cases h; rfl
  str := nofun
  bool := nofun
  den := by rw [pyRepr]; exact den_int L n
theorem Conv.mkNat (n : Nat) : Conv A 13 (.int n) (A.int n) where
  int := fun m h => by cases h; rfl
  str := nofun
  bool := nofun
  den := by
    have : intToks (n : Int) = [.int n] := by
      unfold intToks; rw [if_neg (by omega)]; rfl
    rw [pyRepr, this]; exact .nat n
theorem Conv.mkStr (s : List Char) : Conv A 13 (.str s) (A.str s) where
  int := nofun
  str := fun m h => by cases h; rfl
  bool := nofun
  den := by rw [pyRepr]; exact .str s
theorem Conv.mkBool (L : Laws A) (b : Bool) : Conv A 13 (.bool b) (A.ofBool b) where
  int := nofun
  str := nofun
  bool := fun m h => by cases h; rfl
  den := by
    rw [pyRepr, boolTok]
    cases b
    · exact L.nameFalse ▸ .name "False"
    · exact L.nameTrue ▸ .name "True"

/-- The results of `int`. -/
theorem pyInt_cases (L : Laws A) {k v x} (h : Conv A k v x) :
    (∃ n, pyInt v = .int n ∧ number A x = A.int n) ∨ (∃ ts, pyInt v = .code ts ∧ Den A 13 ts (number A x)) := by
  have hcall : Den A 13 (funcCode [.name "int"] [v]) (number A x) :=
    Den.call (.name "int") (.cons h.den .nil)
  unfold pyInt
  split
  · rename_i n
    exact .inl ⟨n, rfl, by rw [h.int n rfl, L.numberInt]⟩
  · rename_i b
    exact .inl ⟨_, rfl, by rw [h.bool b rfl, L.numberBool]⟩
  · rename_i n
    have hd := h.den
    rw [repr_code] at hd
    exact .inl ⟨n, rfl, by rw [hd.det (.nat n), L.numberInt]⟩
  · rename_i n
    have hd := h.den
    rw [repr_code] at hd
    refine .inl ⟨-n, rfl, ?_⟩
    rw [hd.det (Den.neg ((Den.nat n).weak (by decide))), L.negInt, L.numberInt]
  · exact .inr ⟨_, rfl, hcall⟩

theorem conv_pyInt (L : Laws A) {k v x} (h : Conv A k v x) : Conv A 11 (pyInt v) (number A x) := by
  rcases pyInt_cases L h with ⟨n, h1, h2⟩ | ⟨ts, h1, h2⟩
  · rw [h1, h2]; exact .mkInt L n
  · rw [h1]; exact .code (h2.weak (by decide))

theorem den_pred (L : Laws A) {k v x} (h : Conv A k v x) :
    Den A 9 (pyRepr (pyPred (pyInt v))) (A.bin .sub (number A x) (A.int 1)) := by
  rcases pyInt_cases L h with ⟨n, h1, h2⟩ | ⟨ts, h1, h2⟩
  · rw [h1, h2, L.subInt, pyPred, pyRepr]
    exact (den_int L _).weak (by decide)
  · rw [h1, pyPred, repr_code, repr_code]
    · exact Den.bin (o := .sub) (by decide) (h2.weak (by decide)) ((Den.nat 1).weak (by decide))
    · nofun

theorem den_add (L : Laws A) {k k' v w i n a b} (hi : Conv A k v i) (hn : Conv A k' w n)
    (ha : number A i = A.int a) (hb : number A n = A.int b) :
    Den A 9 (pyRepr (pyAdd (pyInt w) (pyPred (pyInt v)))) (A.bin .add (number A n) (A.bin .sub (number A i) (A.int 1))) := by
  have hval : A.bin .add (number A n) (A.bin .sub (number A i) (A.int 1)) = A.int (b + (a - 1)) := by
    rw [ha, hb, L.subInt, L.addInt]
  have one : Den A 10 [.int 1] (A.int 1) := (Den.nat 1).weak (by decide)
  rcases pyInt_cases L hn with ⟨m, h1, h2⟩ | ⟨ts, h1, h2⟩ <;> rcases pyInt_cases L hi with ⟨m', h1', h2'⟩ | ⟨ts', h1', h2'⟩
  · rw [h1, h1', pyPred, pyAdd, pyRepr, h2, h2', L.subInt, L.addInt]
    exact (den_int L _).weak (by decide)
  · rw [h1, h1', pyPred, pyAdd, repr_code, repr_code, repr_code, pyRepr]
    · have := Den.bin (o := .sub) (by decide) (Den.bin (o := .add) (by decide) ((den_int L m).weak (by decide)) (h2'.weak (by decide))) one
      rw [← h2, ha, hb, L.addInt, L.subInt] at this
      rw [hval, ← Int.add_sub_assoc]
      simpa [level] using this
    all_goals nofun
  · rw [h1, h1', pyPred, pyAdd, repr_code, repr_code, pyRepr, h2', L.subInt]
    · exact Den.bin (o := .add) (by decide) (h2.weak (by decide)) ((den_int L _).weak (by decide))
    all_goals nofun
  · rw [h1, h1', pyPred, pyAdd, repr_code, repr_code, repr_code, repr_code]
    · have := Den.bin (o := .sub) (by decide) (Den.bin (o := .add) (by decide) (h2.weak (by decide)) (h2'.weak (by decide))) one
      rw [ha, hb, L.addInt, L.subInt] at this
      rw [hval, ← Int.add_sub_assoc]
      simpa [level] using this
    all_goals nofun

/-! ### Functions -/

/-- Arguments of a call, their conversions and values. -/
inductive ConvAll (A : Alg V) : List Ex → List Py → List V → Prop
  | nil : ConvAll A [] [] []
  | cons {e v x es vs xs} : Conv A (strength e) v x → ConvAll A es vs xs → ConvAll A (e :: es) (v :: vs) (x :: xs)

theorem ConvAll.dens {es vs xs} (h : ConvAll A es vs xs) : Dens A (vs.map pyRepr) xs := by
  induction h with
  | nil => exact .nil
  | cons h _ ih => exact .cons h.den ih

theorem ConvAll.one {es vs xs} (h : ConvAll A es vs xs) (hl : es.length = 1) :
    ∃ e v x, es = [e] ∧ vs = [v] ∧ xs = [x] ∧ Conv A (strength e) v x := by
  rcases h with _ | ⟨h1, _ | ⟨h2, h⟩⟩
  · cases hl
  · exact ⟨_, _, _, rfl, rfl, rfl, h1⟩
  · simp at hl
theorem ConvAll.two {es vs xs} (h : ConvAll A es vs xs) (hl : es.length = 2) :
    ∃ e v x e' v' x', es = [e, e'] ∧ vs = [v, v'] ∧ xs = [x, x'] ∧ Conv A (strength e) v x ∧ Conv A (strength e') v' x' := by
  rcases h with _ | ⟨h1, _ | ⟨h2, _ | ⟨h3, h⟩⟩⟩
  · cases hl
  · simp at hl
  · exact ⟨_, _, _, _, _, _, rfl, rfl, rfl, h1, h2⟩
  · simp at hl
theorem ConvAll.three {es vs xs} (h : ConvAll A es vs xs) (hl : es.length = 3) :
    ∃ e v x e' v' x' e'' v'' x'', es = [e, e', e''] ∧ vs = [v, v', v''] ∧ xs = [x, x', x''] ∧
      Conv A (strength e) v x ∧ Conv A (strength e') v' x' ∧ Conv A (strength e'') v'' x'' := by
  rcases h with _ | ⟨h1, _ | ⟨h2, _ | ⟨h3, _ | ⟨h4, h⟩⟩⟩⟩
  · cases hl
  · simp at hl
  · simp at hl
  · exact ⟨_, _, _, _, _, _, _, _, _, rfl, rfl, rfl, h1, h2, h3⟩
  · simp at hl

theorem den_meth {ts v m tss vs} (h : Den A 13 ts v) (hs : Dens A tss vs) (args : List Py) (ha : args.map pyRepr = tss) :
    Den A 13 (methCode ts m args) (method A v m vs) := by
  subst ha
  exact Den.call (Den.attr m h) hs

theorem den_os (f : String) : Den A 13 (tOsPath f) (A.attr (A.attr (A.name "os") "path") f) :=
  Den.attr f (Den.attr "path" (Den.name "os"))

theorem den_none : Den A 13 [tNone] (A.name "None") := Den.name "None"

theorem dens_one {k ts v} (h : Den A k ts v) : Dens A [ts] [v] := .cons h .nil

theorem den_bit {b ta tb x y} (ha : Den A 11 ta x) (hb : Den A 11 tb y) : Den A 13 (bitCode b ta tb) (bitVal A b x y) := by
  have one : Den A 8 [Tok.int 1] (A.int 1) := (Den.nat 1).weak (by decide)
  have shift : Den A 13 (.lp :: (.int 1 :: .bin .shl :: tb ++ [.rp])) (A.bin .shl (A.int 1) y) :=
    Den.paren (Den.bin (o := .shl) (by decide) one (hb.weak (by decide)))
  cases b
  · have := Den.paren (Den.bin (o := .band) (by decide) (ha.weak (by decide)) (hb.weak (by decide)))
    simpa [bitCode, bitVal] using this
  · have := Den.paren (Den.bin (o := .bor) (by decide) (ha.weak (by decide)) (hb.weak (by decide)))
    simpa [bitCode, bitVal] using this
  · have := Den.paren (Den.bin (o := .bxor) (by decide) (ha.weak (by decide)) (hb.weak (by decide)))
    simpa [bitCode, bitVal] using this
  · have := Den.paren (Den.bin (o := .shl) (by decide) (ha.weak (by decide)) (hb.weak (by decide)))
    simpa [bitCode, bitVal] using this
  · have := Den.paren (Den.bin (o := .shr) (by decide) (ha.weak (by decide)) (hb.weak (by decide)))
    simpa [bitCode, bitVal] using this
  · have := Den.paren (Den.bin (o := .bor) (by decide) (ha.weak (by decide)) (shift.weak (by decide)))
    simpa [bitCode, bitVal] using this
  · have hm : Den A 7 [Tok.int 4294967295] (A.int 4294967295) := (Den.nat 4294967295).weak (by decide)
    have hx := Den.paren (Den.bin (o := .bxor) (by decide) (shift.weak (by decide)) hm)
    have := Den.paren (Den.bin (o := .band) (by decide) (ha.weak (by decide)) (hx.weak (by decide)))
    simpa [bitCode, bitVal] using this
  · have hx := Den.paren (Den.bin (o := .band) (by decide) (ha.weak (by decide)) (shift.weak (by decide)))
    have := Den.paren (Den.cmp (o := .gt) (hx.weak (by decide)) ((Den.nat 0).weak (by decide)))
    simpa [bitCode, bitVal] using this

theorem den_isNot {ts v} (h : Den A 5 ts v) : Den A 4 (ts ++ [.cmp .isNot, tNone]) (A.cmp .isNot v (A.name "None")) :=
  Den.cmp h (den_none.weak (by decide))

theorem fits_one {k : Nat} {e : Ex} (h : fits [k] [e] = true) : k ≤ strength e := by
  simpa [fits] using h
theorem fits_two {k k' : Nat} {e e' : Ex} (h : fits [k, k'] [e, e'] = true) : k ≤ strength e ∧ k' ≤ strength e' := by
  simpa [fits] using h
theorem fits_fst {k : Nat} {e : Ex} {es} (h : fits [k] (e :: es) = true) : k ≤ strength e := by
  simpa [fits] using h

theorem isOne_eq {v : Py} (h : isOne v = true) : v = .int 1 := by
  cases v <;> simp_all [isOne]

theorem func_conv (L : Laws A) {f es vs xs} (h : ConvAll A es vs xs) (har : f.arity es.length = true)
    (hf : fits f.needs es = true)
    (ht : f = .substr → ∀ s i n, xs = [s, i, n] → IsNumber A i ∧ IsNumber A n ∧ (number A n = A.int 1 →
        A.index s (A.bin .sub (number A i) (A.int 1)) = fnVal A .substr [s, i, n])) :
    Conv A f.strength (func f vs) (fnVal A f xs) := by
  have one : Den A 10 [Tok.int 1] (A.int 1) := (Den.nat 1).weak (by decide)
  have zero : Den A 5 [Tok.int 0] (A.int 0) := (Den.nat 0).weak (by decide)
  cases f with
  | other s => exact .code (Den.call (.name s) h.dens)
  | meth m =>
    cases h with
    | nil => cases har
    | cons h1 hs => exact .code (den_meth (h1.den.weak (fits_fst hf)) hs.dens _ rfl)
  | first m =>
    obtain ⟨e, v, x, rfl, rfl, rfl, h1⟩ := h.one (by simpa [Fn.arity] using har)
    exact .code (den_meth (Den.sliceTo (h1.den.weak (fits_one hf)) one) .nil _ rfl)
  | occurs =>
    obtain ⟨e, v, x, e', v', x', rfl, rfl, rfl, h1, h2⟩ := h.two (by simpa [Fn.arity] using har)
    exact .code (den_meth (h2.den.weak (fits_two hf).2) (dens_one h1.den) _ rfl)
  | att =>
    obtain ⟨e, v, x, e', v', x', rfl, rfl, rfl, h1, h2⟩ := h.two (by simpa [Fn.arity] using har)
    exact .code (Den.bin (o := .add) (by decide)
      ((den_meth (h2.den.weak (fits_two hf).2) (dens_one h1.den) _ rfl).weak (by decide)) one)
  | rat =>
    obtain ⟨e, v, x, e', v', x', rfl, rfl, rfl, h1, h2⟩ := h.two (by simpa [Fn.arity] using har)
    exact .code (Den.bin (o := .add) (by decide)
      ((den_meth (h2.den.weak (fits_two hf).2) (dens_one h1.den) _ rfl).weak (by decide)) one)
  | atc =>
    obtain ⟨e, v, x, e', v', x', rfl, rfl, rfl, h1, h2⟩ := h.two (by simpa [Fn.arity] using har)
    have ha := den_meth (m := "lower") (h1.den.weak (fits_two hf).1) .nil [] rfl
    have hb := den_meth (m := "lower") (h2.den.weak (fits_two hf).2) .nil [] rfl
    exact .code (Den.bin (o := .add) (by decide)
      ((den_meth hb (dens_one ha) _ (by simp [repr_code])).weak (by decide)) one)
  | left =>
    obtain ⟨e, v, x, e', v', x', rfl, rfl, rfl, h1, h2⟩ := h.two (by simpa [Fn.arity] using har)
    exact .code (Den.sliceTo (h1.den.weak (fits_fst hf)) (conv_pyInt L h2).den)
  | right =>
    obtain ⟨e, v, x, e', v', x', rfl, rfl, rfl, h1, h2⟩ := h.two (by simpa [Fn.arity] using har)
    exact .code (Den.sliceFrom (h1.den.weak (fits_fst hf)) (Den.neg (conv_pyInt L h2).den))
  | substr =>
    have h23 : es.length = 2 ∨ es.length = 3 := by simpa [Fn.arity] using har
    rcases h23 with hl | hl
    · obtain ⟨e, v, x, e', v', x', rfl, rfl, rfl, h1, h2⟩ := h.two hl
      exact .code (Den.sliceFrom (h1.den.weak (fits_fst hf)) (den_pred L h2))
    · obtain ⟨e, v, x, e', v', x', e'', v'', x'', rfl, rfl, rfl, h1, h2, h3⟩ := h.three hl
      obtain ⟨⟨a, ha⟩, ⟨b, hb⟩, hidx⟩ := ht rfl _ _ _ rfl
      have h13 := h1.den.weak (fits_fst hf)
      refine .code ?_
      show Den A 13 (substrCode _ _ _) _
      unfold substrCode
      split
      · rename_i hm
        have hn1 := isOne_eq hm
        rcases pyInt_cases L h3 with ⟨n, hn, hv⟩ | ⟨ts, hn, _⟩
        · rw [hn1] at hn; cases hn
          rw [← hidx hv]
          exact Den.index h13 (den_pred L h2)
        · rw [hn1] at hn; cases hn
      · split
        · rename_i hm
          have hn1 := isOne_eq hm
          rcases pyInt_cases L h2 with ⟨n, hn, hv⟩ | ⟨ts, hn, _⟩
          · rw [hn1] at hn; cases hn
            have : fnVal A .substr [x, x', x''] = A.sliceTo x (number A x'') := by
              show A.slice x _ _ = _
              rw [hb, hv, L.subInt, L.addInt]
              show A.slice x (A.int 0) (A.int (b + 0)) = _
              rw [Int.add_zero, L.slice0]
            rw [this]
            exact Den.sliceTo h13 (conv_pyInt L h3).den
          · rw [hn1] at hn; cases hn
        · exact Den.slice h13 (den_pred L h2) (den_add L h2 h3 ha hb)
  | replicate =>
    obtain ⟨e, v, x, e', v', x', rfl, rfl, rfl, h1, h2⟩ := h.two (by simpa [Fn.arity] using har)
    exact .code (Den.bin (o := .mul) (by decide) (h1.den.weak (fits_fst hf)) (conv_pyInt L h2).den)
  | space =>
    obtain ⟨e, v, x, rfl, rfl, rfl, h1⟩ := h.one (by simpa [Fn.arity] using har)
    show Conv A 10 (pySpace (pyInt v)) (A.bin .mul (number A x) (A.str [' ']))
    have sp : Den A 11 [Tok.str [' ']] (A.str [' ']) := (Den.str [' ']).weak (by decide)
    rcases pyInt_cases L h1 with ⟨n, hn, hv⟩ | ⟨ts, hn, hv⟩
    · rw [hn, hv, pySpace]
      split
      · exact .code (Den.bin (o := .mul) (by decide) ((den_int L n).weak (by decide)) sp)
      · rw [L.mulSpace]
        exact (Conv.mkStr _).weak (by decide)
    · rw [hn, pySpace, repr_code]
      · exact .code (Den.bin (o := .mul) (by decide) (hv.weak (by decide)) sp)
      · nofun
  | chr =>
    obtain ⟨e, v, x, rfl, rfl, rfl, h1⟩ := h.one (by simpa [Fn.arity] using har)
    show Conv A 13 (pyChr (pyInt v)) (A.call (A.name "chr") [number A x])
    have hcall := Den.call (Den.name "chr") (dens_one (conv_pyInt L h1).den)
    unfold pyChr
    split
    · rename_i n hn
      rcases pyInt_cases L h1 with ⟨m, hm, hv⟩ | ⟨ts, hm, hv⟩
      · rw [hn] at hm; cases hm
        split
        · rename_i hval
          rw [hv]
          have := L.chrInt n hval
          rw [show A.int (Int.ofNat n) = A.int (n : Int) from rfl, this]
          exact Conv.mkStr _
        · refine .code ?_
          rw [hn] at hcall
          exact hcall
      · rw [hn] at hm; cases hm
    · exact .code hcall
  | asc =>
    obtain ⟨e, v, x, rfl, rfl, rfl, h1⟩ := h.one (by simpa [Fn.arity] using har)
    refine .code (Den.call (Den.name "ord") ?_)
    rw [List.map_cons, repr_code]
    exact dens_one (Den.index (h1.den.weak (fits_one hf)) (Den.nat 0))
  | iif =>
    obtain ⟨e, v, x, e', v', x', e'', v'', x'', rfl, rfl, rfl, h1, h2, h3⟩ := h.three (by simpa [Fn.arity] using har)
    have hn : 1 ≤ strength e ∧ 1 ≤ strength e' := by simpa [Fn.needs, fits] using hf
    exact .code (Den.paren (Den.ite (h2.den.weak hn.2) (h1.den.weak hn.1) (h3.den.weak (Nat.zero_le _))))
  | between =>
    obtain ⟨e, v, x, e', v', x', e'', v'', x'', rfl, rfl, rfl, h1, h2, h3⟩ := h.three (by simpa [Fn.arity] using har)
    have hn : 5 ≤ strength e ∧ 5 ≤ strength e' ∧ 5 ≤ strength e'' := by simpa [Fn.needs, fits] using hf
    have := Den.paren (Den.chain (o := .le) (o' := .le) (h2.den.weak hn.2.1) (h1.den.weak hn.1) (h3.den.weak hn.2.2))
    refine .code ?_
    simpa [func, Fn.strength, fnVal] using this
  | nvl =>
    obtain ⟨e, v, x, e', v', x', rfl, rfl, rfl, h1, h2⟩ := h.two (by simpa [Fn.arity] using har)
    have hx := h1.den.weak (fits_fst hf)
    have := Den.paren (Den.ite (hx.weak (by decide)) ((den_isNot hx).weak (by decide)) (h2.den.weak (Nat.zero_le _)))
    refine .code ?_
    exact this
  | evl =>
    obtain ⟨e, v, x, e', v', x', rfl, rfl, rfl, h1, h2⟩ := h.two (by simpa [Fn.arity] using har)
    refine .code ?_
    have := Den.paren (Den.or (h1.den.weak (fits_two hf).1) (h2.den.weak (fits_two hf).2))
    simpa [func, Fn.strength, fnVal] using this
  | sign =>
    obtain ⟨e, v, x, rfl, rfl, rfl, h1⟩ := h.one (by simpa [Fn.arity] using har)
    have hx := h1.den.weak (fits_one hf)
    have hm : Den A 1 [Tok.bin .sub, .int 1] (A.int (-1)) := by
      have := Den.neg ((Den.nat (A := A) 1).weak (show 11 ≤ 13 by decide))
      rw [show ((1 : Nat) : Int) = 1 from rfl, L.negInt] at this
      exact this.weak (by decide)
    have h2 := Den.paren (Den.ite hm ((Den.cmp (o := .lt) hx zero).weak (by decide)) (zero.weak (by decide)))
    have := Den.ite (one.weak (by decide)) ((Den.cmp (o := .gt) hx zero).weak (by decide)) (h2.weak (by decide))
    refine .code ?_
    simpa [func, Fn.strength, fnVal] using this
  | mod =>
    obtain ⟨e, v, x, e', v', x', rfl, rfl, rfl, h1, h2⟩ := h.two (by simpa [Fn.arity] using har)
    refine .code ?_
    have := Den.paren (Den.bin (o := .mod) (by decide) (h1.den.weak (fits_two hf).1) (h2.den.weak (fits_two hf).2))
    simpa [func, Fn.strength, fnVal] using this
  | empty =>
    obtain ⟨e, v, x, rfl, rfl, rfl, h1⟩ := h.one (by simpa [Fn.arity] using har)
    have hx := h1.den.weak (fits_one hf)
    have hF : Den A 0 [Tok.name "False"] (A.ofBool false) := L.nameFalse ▸ (Den.name "False").weak (by decide)
    have := Den.paren (Den.ite ((Den.not (hx.weak (by decide))).weak (by decide)) ((den_isNot hx).weak (by decide)) hF)
    refine .code ?_
    simpa [func, Fn.strength, fnVal, notNull] using this
  | isnull =>
    obtain ⟨e, v, x, rfl, rfl, rfl, h1⟩ := h.one (by simpa [Fn.arity] using har)
    exact .code (Den.cmp (h1.den.weak (fits_one hf)) (den_none.weak (by decide)))
  | bit b =>
    obtain ⟨e, v, x, e', v', x', rfl, rfl, rfl, h1, h2⟩ := h.two (by simpa [Fn.arity] using har)
    exact .code (den_bit (conv_pyInt L h1).den (conv_pyInt L h2).den)
  | bitnot =>
    obtain ⟨e, v, x, rfl, rfl, rfl, h1⟩ := h.one (by simpa [Fn.arity] using har)
    exact .code (Den.inv (conv_pyInt L h1).den)
  | int =>
    obtain ⟨e, v, x, rfl, rfl, rfl, h1⟩ := h.one (by simpa [Fn.arity] using har)
    exact conv_pyInt L h1
  | forceext =>
    obtain ⟨e, v, x, e', v', x', rfl, rfl, rfl, h1, h2⟩ := h.two (by simpa [Fn.arity] using har)
    have hs : Den A 13 (funcCode (tOsPath "splitext") [v]) (splitext A x) := Den.call (den_os _) (dens_one h1.den)
    refine .code ?_
    exact Den.bin (o := .add) (by decide) (Den.bin (o := .add) (by decide)
      ((Den.index hs (Den.nat 0)).weak (by decide)) ((Den.str ['.']).weak (by decide))) (h2.den.weak (fits_two hf).2)

/-! ### Shape of cleaned trees and converted values -/

theorem pyInt_op (v : Py) : (pyInt v).isOp = false := by
  unfold pyInt; split <;> rfl
theorem pyChr_op (v : Py) : (pyChr v).isOp = false := by
  unfold pyChr; split
  · split <;> rfl
  · rfl
theorem pySpace_op (v : Py) : (pySpace v).isOp = false := by
  unfold pySpace; split
  · split <;> rfl
  · rfl
theorem func_op (f : Fn) (vs : List Py) : (func f vs).isOp = false := by
  unfold func
  split <;> first | rfl | exact pyInt_op _ | exact pyChr_op _ | exact pySpace_op _
theorem opCode_op (o : AOp) (l r : Py) : (opCode o l r).isOp = false := by
  unfold opCode; split <;> rfl

theorem conv_mkSub (sk : Bool) (e : Ex) : conv sk (mkSub e) = conv sk e := by
  cases e <;> simp [mkSub, conv]
theorem conv_powLeft (sk : Bool) (e : Ex) : conv sk (powLeft e) = conv sk e := by
  unfold powLeft; split
  · rw [conv]
  · rfl
theorem conv_powRight (sk : Bool) (e : Ex) : conv sk (powRight e) = conv sk e := by
  unfold powRight; split
  · rw [conv.eq_def sk (.sub _)]
  · rfl

theorem clean_sub (e : Ex) : clean (.sub e) = mkSub (clean e) := by rw [clean]
theorem isSub_mkSub (e : Ex) : isSub (mkSub e) = true := by cases e <;> rfl
theorem isSub_mkMinus (e : Ex) : isSub (mkMinus e) = false := by cases e <;> rfl
theorem isSub_clean (e : Ex) : isSub (clean e) = isSub e := by
  cases e <;> simp only [clean, isSub]
  · rename_i e; cases clean e <;> rfl
  · rename_i e; cases clean e <;> rfl
  · rename_i o l r; cases o <;> rfl
theorem isSign_clean (e : Ex) : isSign (clean e) = isSign e := by
  cases e <;> simp only [clean, isSign]
  · rename_i e; cases clean e <;> rfl
  · rename_i e; cases clean e <;> rfl
  · rename_i o l r; cases o <;> rfl
theorem isPow_clean (e : Ex) : isPow (clean e) = isPow e := by
  cases e <;> simp only [clean, isPow]
  · rename_i e; cases clean e <;> rfl
  · rename_i e; cases clean e <;> rfl
  · rename_i o l r; cases o <;> rfl
theorem isAdd_clean (e : Ex) : isAdd (clean e) = isAdd e := by
  cases e <;> simp only [clean, isAdd]
  · rename_i e; cases clean e <;> rfl
  · rename_i e; cases clean e <;> rfl
  · rename_i o l r; cases o <;> rfl
theorem isPath_clean (e : Ex) : isPath (clean e) = isPath e := by
  cases e <;> simp only [clean, isPath]
  · rename_i e; cases clean e <;> rfl
  · rename_i e; cases clean e <;> rfl
  · rename_i o l r; cases o <;> rfl

theorem strength_pow : ∀ (e l r : Ex), clean e = .sub (.bin .pow l r) ∨ clean e = .bin .pow l r → strength e = 12
  | .sub e, l, r, h => by
    rw [strength]
    rw [clean_sub] at h
    refine strength_pow e l r ?_
    cases hc : clean e <;> rw [hc] at h <;> simp [mkSub] at h ⊢
    all_goals exact h
  | .bin o a b, l, r, h => by
    cases o <;> simp [clean] at h <;> rfl
  | .minus e, l, r, h => by
    rw [clean] at h
    cases hc : clean e <;> rw [hc] at h <;> simp [mkMinus] at h
  | .name _, _, _, h => by simp [clean] at h
  | .int _, _, _, h => by simp [clean] at h
  | .str _, _, _, h => by simp [clean] at h
  | .bool _, _, _, h => by simp [clean] at h
  | .null, _, _, h => by simp [clean] at h
  | .plus _, _, _, h => by simp [clean] at h
  | .not _, _, _, h => by simp [clean] at h
  | .cmp _ _ _, _, _, h => by simp [clean] at h
  | .and _ _, _, _, h => by simp [clean] at h
  | .or _ _, _, _, h => by simp [clean] at h
  | .addbs _, _, _, h => by simp [clean] at h
  | .call _ _, _, _, h => by simp [clean] at h

theorem conv_bin_op (sk : Bool) (o : AOp) (l r : Ex) : (conv sk (.bin o l r)).isOp = false := by
  cases o <;> rw [conv.eq_def] <;> simp only [] <;> first | exact opCode_op _ _ _ | skip
  split
  · rfl
  · exact opCode_op _ _ _

theorem conv_op (sk : Bool) : ∀ e, (conv sk (clean e)).isOp = isLogic e
  | .sub e => by rw [clean_sub, conv_mkSub, isLogic]; exact conv_op sk e
  | .minus e => by
    rw [clean]
    cases clean e <;> simp [mkMinus, conv, Py.isOp, isLogic]
  | .bin o l r => by
    have : ∃ l' r', clean (.bin o l r) = .bin o l' r' := by cases o <;> exact ⟨_, _, by rw [clean]; try nofun⟩
    obtain ⟨l', r', h⟩ := this
    rw [h, conv_bin_op]; rfl
  | .name _ => by simp [clean, conv, Py.isOp, isLogic]
  | .int _ => by simp [clean, conv, Py.isOp, isLogic]
  | .str _ => by simp [clean, conv, Py.isOp, isLogic]
  | .bool _ => by simp [clean, conv, Py.isOp, isLogic]
  | .null => by simp [clean, conv, Py.isOp, isLogic]
  | .plus _ => by simp [clean, conv, Py.isOp, isLogic]
  | .not _ => by simp [clean, conv, Py.isOp, isLogic]
  | .cmp _ _ _ => by simp [clean, conv, Py.isOp, isLogic]
  | .and _ _ => by simp [clean, conv, Py.isOp, isLogic]
  | .or _ _ => by simp [clean, conv, Py.isOp, isLogic]
  | .addbs _ => by simp [clean, conv, addbsCode, Py.isOp, isLogic]
  | .call f args => by simp [clean, conv, func_op, isLogic]

theorem conv_prec (sk : Bool) : ∀ e, isLogic e = true → (conv sk (clean e)).prec + 1 = strength e
  | .sub e, h => by rw [clean_sub, conv_mkSub, strength]; exact conv_prec sk e h
  | .not _, _ => by simp [clean, conv, Py.prec, strength]
  | .and _ _, _ => by simp [clean, conv, Py.prec, strength]
  | .or _ _, _ => by simp [clean, conv, Py.prec, strength]

theorem wrap_plain {v : Py} (hs : ∀ s, v ≠ .str s) (ho : v.isOp = false) (p : Nat) : wrap p v = pyRepr v := by
  cases v <;> first | exact absurd rfl (hs _) | (simp [wrap, pyRepr]; done) | cases ho
theorem wrap_op {v : Py} (ho : v.isOp = true) (p : Nat) (hp : p ≤ 2) :
    wrap p v = if v.prec < p then .lp :: (pyRepr v ++ [.rp]) else pyRepr v := by
  cases v <;> first | cases ho | skip
  · simp [wrap, pyRepr, Py.prec]
  · simp [wrap, pyRepr, Py.prec]
  · rw [if_neg (by simp only [Py.prec]; omega)]; simp [wrap, pyRepr]

theorem noText (L : Laws A) {x : V} (h : MayHold A x) : NoText A x := by
  intro s hs
  rcases h with ⟨b, hb⟩ | h
  · exact L.strNotBool s b (hs.symm.trans hb)
  · rw [hs, L.raisesStr] at h; cases h

theorem choose_bool (L : Laws A) (b : Bool) (t f : V) : A.choose (A.ofBool b) t f = if b then t else f := by
  simp [Alg.choose, L.raisesBool, L.truthBool]
theorem not_bool (L : Laws A) (b : Bool) : A.notOf (A.ofBool b) = A.ofBool (!b) := by
  simp [Alg.notOf, L.raisesBool, L.truthBool]
theorem choose_raises {c : V} (h : A.raises c = true) (t f : V) : A.choose c t f = c := by simp [Alg.choose, h]
theorem logical_of (L : Laws A) {v : V} (h : MayHold A v) : logical A v = v := by
  rcases h with ⟨b, rfl⟩ | h
  · rw [logical, choose_bool L]; cases b <;> rfl
  · rw [logical, choose_raises h]

/-- An operand of AND, OR and NOT. -/
theorem den_wrap_of (L : Laws A) {e sk k x} (h : Conv A k (conv sk (clean e)) x) (hlog : isLogic e = true → k = strength e)
    (hnot : isLogic e = false → 3 ≤ k) (hl : NoText A x) (p : Nat) (hp : p ≤ 2) :
    Den A (p + 1) (wrap p (conv sk (clean e))) x := by
  have hs : ∀ s, conv sk (clean e) ≠ .str s := by
    intro s hs
    exact hl s (h.str s hs)
  cases hlo : isLogic e with
  | false =>
    rw [wrap_plain hs (by rw [conv_op, hlo])]
    have := hnot hlo
    exact h.den.weak (by omega)
  | true =>
    rw [wrap_op (by rw [conv_op, hlo]) p hp]
    split
    · exact h.den.paren.weak (by omega)
    · have := conv_prec sk e hlo
      have := hlog hlo
      exact h.den.weak (by omega)

theorem den_wrap (L : Laws A) {e sk} (h : Conv A (strength e) (conv sk (clean e)) (fox A e)) (hf : fitsLogic e = true)
    (hl : NoText A (fox A e)) (p : Nat) (hp : p ≤ 2) : Den A (p + 1) (wrap p (conv sk (clean e))) (fox A e) :=
  den_wrap_of L h (fun _ => rfl) (fun hlog => by simpa [fitsLogic, hlog] using hf) hl p hp

theorem opCode_conv (L : Laws A) {o : AOp} {l r : Py} {x y : V} (ho : o ≠ .pow) (hl : Conv A o.level l x)
    (hr : Conv A (o.level + 1) r y) : Conv A o.level (opCode o l r) (A.bin o.py x y) := by
  unfold opCode
  split
  · rw [hl.str _ rfl, hr.str _ rfl]
    show Conv A _ _ (A.bin .add _ _)
    rw [L.addStr]
    exact (Conv.mkStr _).weak (by decide)
  · exact .code (Den.bin (by cases o <;> first | exact absurd rfl ho | decide) hl.den hr.den)

theorem opCode_pow {l r : Py} {x y : V} (hl : Conv A 13 l x) (hr : Conv A 11 r y) :
    Conv A 12 (opCode .pow l r) (A.bin .pow x y) := by
  unfold opCode
  exact .code (Den.pow hl.den hr.den)

theorem parens_sub {e : Ex} {v : Py} {k x} (he : isSub e = true) (h : Conv A k v x) : Conv A 13 (parens e v) x := by
  unfold parens; rw [if_pos he]
  exact .code h.den.paren
theorem parens_not {e : Ex} {v : Py} (he : isSub e = false) : parens e v = v := by
  unfold parens; rw [if_neg (by simp [he])]

theorem isSub_powLeft (e : Ex) : isSub (powLeft e) = (isSub e || isPow e) := by
  cases e <;> try rfl
  rename_i o l r; cases o <;> rfl

/-! ### Paths -/

/-- The components `xs` name the path `v`. -/
def Joined (A : Alg V) (xs : List V) (v : V) : Prop := xs = [v] ∨ ∃ a b cs, xs = a :: b :: cs ∧ join A xs = v

theorem join_snoc (L : Laws A) (y : V) : ∀ (cs : List V) (a b : V), join A (a :: b :: (cs ++ [y])) = join A [join A (a :: b :: cs), y]
  | [], a, b => L.joinMore a b y []
  | c :: cs, a, b => by
    rw [List.cons_append, L.joinMore, join_snoc L y cs, ← L.joinMore]

theorem joined_snoc (L : Laws A) {xs v} (h : Joined A xs v) (y : V) : join A (xs ++ [y]) = join A [v, y] := by
  rcases h with rfl | ⟨a, b, cs, rfl, rfl⟩
  · rfl
  · exact join_snoc L y cs a b

theorem dens_append {a b x y} (h : Dens A a x) (h' : Dens A b y) : Dens A (a ++ b) (x ++ y) := by
  induction h with
  | nil => exact h'
  | cons h _ ih => exact .cons h ih

theorem pathArgs_single {x : Ex} (h : isAdd x = false) (d : Py) : pathArgs (.addbs x) d = [conv true x] := by
  rw [pathArgs.eq_def]
  cases x <;> try rfl
  rename_i o l r
  cases o <;> first | rfl | cases h

theorem den_join {xs : List V} {vs : List Py} (h : Dens A (vs.map pyRepr) xs) :
    Den A 13 (funcCode (tOsPath "join") vs) (join A xs) := Den.call (den_os _) h

/-! ### The conversion -/

theorem bin_arith (L : Laws A) {o : AOp} {l r : Ex} {sk : Bool} (ho : o ≠ .pow)
    (hl : Conv A (strength l) (conv sk (clean l)) (fox A l)) (hr : Conv A (strength r) (conv sk (clean r)) (fox A r))
    (fl : fitsLeft o l = true) (fr : fitsRight o r = true) :
    Conv A o.level (opCode o (parens (clean l) (conv sk (clean l))) (parens (clean r) (conv sk (clean r))))
      (A.bin o.py (fox A l) (fox A r)) := by
  have h13 : o.level + 1 ≤ 13 := by cases o <;> decide
  refine opCode_conv L ho ?_ ?_
  · cases hs : isSub l with
    | true => exact (parens_sub (by rw [isSub_clean, hs]) hl).weak (by omega)
    | false =>
      rw [parens_not (by rw [isSub_clean, hs])]
      refine hl.weak ?_
      cases o <;> first | exact absurd rfl ho | simpa [fitsLeft, hs] using fl
  · cases hs : isSub r with
    | true => exact (parens_sub (by rw [isSub_clean, hs]) hr).weak (by omega)
    | false =>
      rw [parens_not (by rw [isSub_clean, hs])]
      refine hr.weak ?_
      cases o <;> first | exact absurd rfl ho | (rw [fitsRight, hs, Bool.false_or] at fr; exact of_decide_eq_true fr)

theorem bin_power {l r : Ex} {sk : Bool}
    (hl : Conv A (strength l) (conv sk (clean l)) (fox A l)) (hr : Conv A (strength r) (conv sk (clean r)) (fox A r))
    (fl : fitsLeft .pow l = true) (fr : fitsRight .pow r = true) :
    Conv A 12 (opCode .pow (parens (powLeft (clean l)) (conv sk (powLeft (clean l))))
        (parens (powRight (clean r)) (conv sk (powRight (clean r)))))
      (A.bin .pow (fox A l) (fox A r)) := by
  rw [conv_powLeft, conv_powRight]
  refine opCode_pow ?_ ?_
  · cases hs : isSub (powLeft (clean l)) with
    | true => exact parens_sub hs hl
    | false =>
      rw [parens_not hs]
      rw [isSub_powLeft, isSub_clean, isPow_clean] at hs
      have hs' : isSub l = false ∧ isPow l = false := by simpa using hs
      have : strength l = 13 := by simpa [fitsLeft, hs'.1, hs'.2] using fl
      exact this ▸ hl
  · cases hs : isSub (powRight (clean r)) with
    | true => exact (parens_sub hs hr).weak (by decide)
    | false =>
      rw [parens_not hs]
      refine hr.weak ?_
      cases hr' : isSub r with
      | false => rw [fitsRight, hr', Bool.false_or] at fr; exact of_decide_eq_true fr
      | true =>
        rw [← isSub_clean] at hr'
        revert hs hr'
        unfold powRight
        split
        · rename_i a b heq
          intro _ _
          rw [strength_pow r a b (.inl heq)]; decide
        · intro h1 h2; rw [h1] at h2; cases h2

theorem plain_addbs {x : Ex} (h : Plain (.addbs x) = true) : Plain x = true := by rwa [Plain] at h
theorem typed_addbs {x : Ex} (h : Typed A (.addbs x)) : Typed A x := by rwa [Typed] at h
theorem path_single {x x' : Ex} {k} (hx : Ex.addbs x' = .addbs x) (hnot : isAdd x' = false)
    (h : Conv A k (conv true (clean x')) (fox A x')) :
    ∃ xs, (∀ d, Dens A ((pathArgs (clean (.addbs x')) d).map pyRepr) xs) ∧ Joined A xs (fox A x) := by
  cases hx
  refine ⟨[fox A x], fun d => ?_, .inl rfl⟩
  rw [clean, pathArgs_single (by rw [isAdd_clean, hnot])]
  exact dens_one h.den

theorem fnArgs {f : Fn} {args : List Ex} (h : Plain (.call f args) = true) :
    Plains args = true ∧ f.arity args.length = true ∧ fits f.needs args = true := by
  simpa [Plain, and_assoc] using h

mutual
theorem conv_sound (L : Laws A) : ∀ (e : Ex), Plain e = true → Typed A e → ∀ sk, Conv A (strength e) (conv sk (clean e)) (fox A e)
  | .name s, _, _, sk => by
    rw [clean, conv, fox]
    · exact .code (.name s)
    all_goals nofun
  | .int n, _, _, sk => by
    rw [clean, conv, fox]
    · exact .mkNat n
    all_goals nofun
  | .str s, _, _, sk => by
    rw [clean, conv, fox]
    · exact .mkStr s
    all_goals nofun
  | .bool b, _, _, sk => by
    rw [clean, conv, fox]
    · exact .mkBool L b
    all_goals nofun
  | .null, _, _, sk => by
    rw [clean, conv, fox]
    · exact { int := nofun, str := nofun, bool := nofun, den := by rw [pyRepr]; exact Den.name "None" }
    all_goals nofun
  | .sub e, hp, ht, sk => by
    rw [clean_sub, conv_mkSub, strength, fox]
    rw [Plain] at hp; rw [Typed] at ht
    exact conv_sound L e hp ht sk
  | .plus e, hp, ht, sk => by
    rw [clean, conv, strength, fox]
    rw [Plain] at hp; rw [Typed] at ht
    exact .code (conv_sound L e hp ht sk).den
  | .minus e, hp, ht, sk => by
    rw [Typed] at ht
    have hp' : (Plain e = true ∧ isSign e = false) ∧ 11 ≤ strength e := by simpa [Plain] using hp
    have hm : mkMinus (clean e) = .minus (clean e) := by
      have := isSign_clean e
      rw [hp'.1.2] at this
      cases h : clean e <;> rw [h] at this <;> first | rfl | cases this
    rw [clean, hm, conv, strength, fox]
    exact .code (Den.neg ((conv_sound L e hp'.1.1 ht sk).den.weak hp'.2))
  | .not e, hp, ht, sk => by
    rw [Typed] at ht
    have hp' : Plain e = true ∧ fitsLogic e = true := by simpa [Plain] using hp
    rw [clean, conv, strength, fox]
    exact { int := nofun, str := nofun, bool := nofun,
            den := by rw [pyRepr]; exact Den.not (den_wrap L (conv_sound L e hp'.1 ht.1 sk) hp'.2 (noText L ht.2) 2 (by decide)) }
  | .and l r, hp, ht, sk => by
    rw [Typed] at ht
    obtain ⟨tl, tr, il, nr, ir⟩ := ht
    have hp' : ((Plain l = true ∧ Plain r = true) ∧ fitsLogic l = true) ∧ fitsLogic r = true := by simpa [Plain] using hp
    rw [clean, conv, strength, fox]
    refine { int := nofun, str := nofun, bool := nofun, den := ?_ }
    rw [pyRepr]
    have := Den.and (den_wrap L (conv_sound L l hp'.1.1.1 tl sk) hp'.1.2 (noText L il) 1 (by decide))
      (den_wrap L (conv_sound L r hp'.1.1.2 tr sk) hp'.2 nr 1 (by decide))
    have hv : A.choose (fox A l) (fox A r) (fox A l) = A.choose (fox A l) (logical A (fox A r)) (A.ofBool false) := by
      rcases il with ⟨a, ha⟩ | il
      · rw [ha] at ir ⊢
        rw [choose_bool L, choose_bool L]
        cases a with
        | false => rfl
        | true => exact (logical_of L (ir rfl)).symm
      · rw [choose_raises il, choose_raises il]
    rw [hv] at this
    exact this
  | .or l r, hp, ht, sk => by
    rw [Typed] at ht
    obtain ⟨tl, tr, il, nr, ir⟩ := ht
    have hp' : ((Plain l = true ∧ Plain r = true) ∧ fitsLogic l = true) ∧ fitsLogic r = true := by simpa [Plain] using hp
    rw [clean, conv, strength, fox]
    refine { int := nofun, str := nofun, bool := nofun, den := ?_ }
    rw [pyRepr]
    have := Den.or (den_wrap L (conv_sound L l hp'.1.1.1 tl sk) hp'.1.2 (noText L il) 0 (by decide))
      (den_wrap L (conv_sound L r hp'.1.1.2 tr sk) hp'.2 nr 0 (by decide))
    have hv : A.choose (fox A l) (fox A l) (fox A r) = A.choose (fox A l) (A.ofBool true) (logical A (fox A r)) := by
      rcases il with ⟨a, ha⟩ | il
      · rw [ha] at ir ⊢
        rw [choose_bool L, choose_bool L]
        cases a with
        | true => rfl
        | false => exact (logical_of L (ir rfl)).symm
      · rw [choose_raises il, choose_raises il]
    rw [hv] at this
    exact this
  | .cmp o l r, hp, ht, sk => by
    rw [Typed] at ht
    have hp' : ((Plain l = true ∧ Plain r = true) ∧ 5 ≤ strength l) ∧ 5 ≤ strength r := by simpa [Plain] using hp
    rw [clean, conv, strength, fox]
    exact .code (Den.cmp ((conv_sound L l hp'.1.1.1 ht.1 sk).den.weak hp'.1.2) ((conv_sound L r hp'.1.1.2 ht.2 sk).den.weak hp'.2))
  | .addbs e, hp, ht, sk => by
    rw [Plain] at hp; rw [Typed] at ht
    rw [clean, conv, fox]
    refine .code (den_join ?_)
    rw [List.map_cons, List.map_cons, List.map_nil]
    refine .cons (conv_sound L e hp ht sk).den (.cons (k := 13) ?_ .nil)
    rw [pyRepr]; exact Den.str []
  | .call f args, hp, ht, sk => by
    rw [Typed] at ht
    obtain ⟨hp1, hp2, hp3⟩ := fnArgs hp
    rw [clean, conv, strength, fox]
    exact func_conv L (convs_sound L args hp1 ht.1 sk) hp2 hp3 ht.2
  | .bin o l r, hp, ht, sk => by
    rw [Typed] at ht
    obtain ⟨tl, tr, hrel⟩ := ht
    have hp' : (((Plain l = true ∧ Plain r = true) ∧ fitsLeft o l = true) ∧ fitsRight o r = true) ∧
        (o = .add → isLogic l = false ∧ plainPath l = true) := by
      rw [Plain, Bool.and_eq_true, Bool.and_eq_true, Bool.and_eq_true, Bool.and_eq_true] at hp
      refine ⟨hp.1, fun h => ?_⟩
      subst h
      simpa using hp.2
    obtain ⟨⟨⟨⟨pl, pr⟩, fl⟩, fr⟩, hadd⟩ := hp'
    rw [strength, fox]
    have hl := conv_sound L l pl tl
    have hr := conv_sound L r pr tr
    cases o
    case pow =>
      rw [clean, conv]
      · exact bin_power (hl sk) (hr sk) fl fr
      · nofun
    case add =>
      rw [clean, conv]
      · split
        · rename_i hc
          rw [conv_op, (hadd rfl).1, Bool.or_false, isPath_clean] at hc
          have hpath : isPath l = true := by revert hc; cases isPath l <;> simp
          obtain ⟨x, hx⟩ : ∃ x, l = .addbs x := by cases l <;> first | exact ⟨_, rfl⟩ | cases hpath
          obtain ⟨xs, hd, hj⟩ := path_sound L l pl tl (hadd rfl).2 x hx
          refine .code ?_
          have hrel' := hrel rfl ⟨x, hx⟩
          have hval : A.bin AOp.add.py (fox A l) (fox A r) = join A (xs ++ [fox A r]) := by
            rw [joined_snoc L hj, hrel', hx, fox]; rfl
          rw [hval]
          refine (den_join ?_).weak (by decide)
          rw [List.map_append]
          exact dens_append (hd _) (dens_one (hr true).den)
        · exact bin_arith L (by decide) (hl sk) (hr sk) fl fr
      · nofun
    all_goals
      rw [clean, conv]
      · exact bin_arith L (by decide) (hl sk) (hr sk) fl fr
      all_goals nofun
theorem path_sound (L : Laws A) : ∀ (l : Ex), Plain l = true → Typed A l → plainPath l = true → ∀ x, l = .addbs x →
    ∃ xs, (∀ d, Dens A ((pathArgs (clean l) d).map pyRepr) xs) ∧ Joined A xs (fox A x)
  | .addbs (.bin .add (.addbs y) r), hp, ht, hq, x, hx => by
    cases hx
    have hp' : Plain (.addbs y) = true ∧ Plain r = true := by
      rw [Plain, Plain] at hp
      simp only [Bool.and_eq_true] at hp
      exact hp.1.1.1
    rw [Typed, Typed] at ht
    obtain ⟨t1, t2, hrel⟩ := ht
    rw [plainPath] at hq
    obtain ⟨ys, hd, hj⟩ := path_sound L (.addbs y) hp'.1 t1 hq y rfl
    refine ⟨ys ++ [fox A r], fun d => ?_, .inr ?_⟩
    · rw [clean, clean, pathArgs, List.map_append]
      · exact dens_append (hd _) (dens_one (conv_sound L r hp'.2 t2 true).den)
      · nofun
    · have hval : join A (ys ++ [fox A r]) = fox A (.bin .add (.addbs y) r) := by
        rw [joined_snoc L hj, hrel rfl ⟨y, rfl⟩, fox, fox]; rfl
      rcases hj with rfl | ⟨a, b, cs, rfl, _⟩
      · exact ⟨_, _, [], rfl, hval⟩
      · exact ⟨_, _, cs ++ [fox A r], rfl, hval⟩
  | .addbs (.name s), hp, ht, _, _, hx => path_single hx rfl (conv_sound L (.name s) (plain_addbs hp) (typed_addbs ht) true)
  | .addbs (.int n), hp, ht, _, _, hx => path_single hx rfl (conv_sound L (.int n) (plain_addbs hp) (typed_addbs ht) true)
  | .addbs (.str s), hp, ht, _, _, hx => path_single hx rfl (conv_sound L (.str s) (plain_addbs hp) (typed_addbs ht) true)
  | .addbs (.bool b), hp, ht, _, _, hx => path_single hx rfl (conv_sound L (.bool b) (plain_addbs hp) (typed_addbs ht) true)
  | .addbs .null, hp, ht, _, _, hx => path_single hx rfl (conv_sound L .null (plain_addbs hp) (typed_addbs ht) true)
  | .addbs (.sub e), hp, ht, _, _, hx => path_single hx rfl (conv_sound L (.sub e) (plain_addbs hp) (typed_addbs ht) true)
  | .addbs (.plus e), hp, ht, _, _, hx => path_single hx rfl (conv_sound L (.plus e) (plain_addbs hp) (typed_addbs ht) true)
  | .addbs (.minus e), hp, ht, _, _, hx => path_single hx rfl (conv_sound L (.minus e) (plain_addbs hp) (typed_addbs ht) true)
  | .addbs (.not e), hp, ht, _, _, hx => path_single hx rfl (conv_sound L (.not e) (plain_addbs hp) (typed_addbs ht) true)
  | .addbs (.cmp o l r), hp, ht, _, _, hx => path_single hx rfl (conv_sound L (.cmp o l r) (plain_addbs hp) (typed_addbs ht) true)
  | .addbs (.and l r), hp, ht, _, _, hx => path_single hx rfl (conv_sound L (.and l r) (plain_addbs hp) (typed_addbs ht) true)
  | .addbs (.or l r), hp, ht, _, _, hx => path_single hx rfl (conv_sound L (.or l r) (plain_addbs hp) (typed_addbs ht) true)
  | .addbs (.addbs e), hp, ht, _, _, hx => path_single hx rfl (conv_sound L (.addbs e) (plain_addbs hp) (typed_addbs ht) true)
  | .addbs (.call f as), hp, ht, _, _, hx => path_single hx rfl (conv_sound L (.call f as) (plain_addbs hp) (typed_addbs ht) true)
  | .addbs (.bin .sub l r), hp, ht, _, _, hx => path_single hx rfl (conv_sound L (.bin .sub l r) (plain_addbs hp) (typed_addbs ht) true)
  | .addbs (.bin .mul l r), hp, ht, _, _, hx => path_single hx rfl (conv_sound L (.bin .mul l r) (plain_addbs hp) (typed_addbs ht) true)
  | .addbs (.bin .div l r), hp, ht, _, _, hx => path_single hx rfl (conv_sound L (.bin .div l r) (plain_addbs hp) (typed_addbs ht) true)
  | .addbs (.bin .mod l r), hp, ht, _, _, hx => path_single hx rfl (conv_sound L (.bin .mod l r) (plain_addbs hp) (typed_addbs ht) true)
  | .addbs (.bin .pow l r), hp, ht, _, _, hx => path_single hx rfl (conv_sound L (.bin .pow l r) (plain_addbs hp) (typed_addbs ht) true)
  | .addbs (.bin .add (.name s) r), _, _, hq, _, _ => by simp [plainPath] at hq
  | .addbs (.bin .add (.int n) r), _, _, hq, _, _ => by simp [plainPath] at hq
  | .addbs (.bin .add (.str s) r), _, _, hq, _, _ => by simp [plainPath] at hq
  | .addbs (.bin .add (.bool b) r), _, _, hq, _, _ => by simp [plainPath] at hq
  | .addbs (.bin .add .null r), _, _, hq, _, _ => by simp [plainPath] at hq
  | .addbs (.bin .add (.sub e) r), _, _, hq, _, _ => by simp [plainPath] at hq
  | .addbs (.bin .add (.plus e) r), _, _, hq, _, _ => by simp [plainPath] at hq
  | .addbs (.bin .add (.minus e) r), _, _, hq, _, _ => by simp [plainPath] at hq
  | .addbs (.bin .add (.not e) r), _, _, hq, _, _ => by simp [plainPath] at hq
  | .addbs (.bin .add (.bin o a b) r), _, _, hq, _, _ => by simp [plainPath] at hq
  | .addbs (.bin .add (.cmp o a b) r), _, _, hq, _, _ => by simp [plainPath] at hq
  | .addbs (.bin .add (.and a b) r), _, _, hq, _, _ => by simp [plainPath] at hq
  | .addbs (.bin .add (.or a b) r), _, _, hq, _, _ => by simp [plainPath] at hq
  | .addbs (.bin .add (.call f as) r), _, _, hq, _, _ => by simp [plainPath] at hq
  | .name _, _, _, _, _, hx => nomatch hx
  | .int _, _, _, _, _, hx => nomatch hx
  | .str _, _, _, _, _, hx => nomatch hx
  | .bool _, _, _, _, _, hx => nomatch hx
  | .null, _, _, _, _, hx => nomatch hx
  | .sub _, _, _, _, _, hx => nomatch hx
  | .plus _, _, _, _, _, hx => nomatch hx
  | .minus _, _, _, _, _, hx => nomatch hx
  | .not _, _, _, _, _, hx => nomatch hx
  | .bin _ _ _, _, _, _, _, hx => nomatch hx
  | .cmp _ _ _, _, _, _, _, hx => nomatch hx
  | .and _ _, _, _, _, _, hx => nomatch hx
  | .or _ _, _, _, _, _, hx => nomatch hx
  | .call _ _, _, _, _, _, hx => nomatch hx
theorem convs_sound (L : Laws A) : ∀ (es : List Ex), Plains es = true → Typeds A es → ∀ sk,
    ConvAll A es (convs sk (cleans es)) (foxs A es)
  | [], _, _, sk => by rw [cleans, convs, foxs]; exact .nil
  | e :: es, hp, ht, sk => by
    have hp' : Plain e = true ∧ Plains es = true := by simpa [Plains] using hp
    rw [Typeds] at ht
    rw [cleans, convs, foxs]
    exact .cons (conv_sound L e hp'.1 ht.1 sk) (convs_sound L es hp'.2 ht.2 sk)
end

end Props.ExprAux
