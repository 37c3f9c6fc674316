import Verif.Spec.Blocks
/-! The generated blocks are read back and executed as intended: lemmas. -/
namespace Props.BlocksAux
open Blocks BlocksSpec
variable {S C V X E σ : Type}

abbrev L (S C V : Type) := List (Nat × PLine S C V)

/-! ### Reading indentation -/

inductive Reads : Nat → L S C V → List (Tree S C V) → L S C V → Prop
  | stop {d ls} : (∀ k l r, ls = (k, l) :: r → k ≠ d) → Reads d ls [] ls
  | node {d l ls below r1 after r2} : Reads (d + 1) ls below r1 → Reads d r1 after r2 →
      Reads d ((d, l) :: ls) (.node l below :: after) r2

theorem reads_le {d : Nat} {ls : L S C V} {ts rest} (h : Reads d ls ts rest) : rest.length ≤ ls.length := by
  induction h with
  | stop _ => exact Nat.le_refl _
  | node _ _ ih1 ih2 => simp only [List.length_cons]; omega

theorem reads_eq {d : Nat} {ls : L S C V} {ts rest} (h : Reads d ls ts rest) (f : Nat) (hf : ls.length ≤ f) :
    readLevel f d ls = (ts, rest) := by
  induction h generalizing f with
  | @stop d ls hne =>
    cases f with
    | zero => rfl
    | succ f =>
      cases ls with
      | nil => rfl
      | cons p r =>
        obtain ⟨k, l⟩ := p
        rw [readLevel, if_neg (hne k l r rfl)]
  | @node d l ls below r1 after r2 h1 h2 ih1 ih2 =>
    cases f with
    | zero => simp at hf
    | succ f =>
      have hl : ls.length ≤ f := by simpa using hf
      rw [readLevel, if_pos rfl, ih1 f hl]
      simp only []
      rw [ih2 f (Nat.le_trans (reads_le h1) hl)]

def OKrest (d : Nat) (rest : L S C V) : Prop := ∀ k l r, rest = (k, l) :: r → k ≤ d

/-- `ls` is a run of lines at depth `d` that reads as `ts`. -/
def Seg (d : Nat) (ls : L S C V) (ts : List (Tree S C V)) : Prop :=
  OKrest d ls ∧ ∀ rest after r2, OKrest d rest → Reads d rest after r2 → Reads d (ls ++ rest) (ts ++ after) r2

theorem seg_nil (d : Nat) : Seg d ([] : L S C V) [] := ⟨fun _ _ _ h => by simp at h, fun _ _ _ _ h => h⟩

theorem okrest_append {d : Nat} {a b : L S C V} (ha : OKrest d a) (hb : OKrest d b) : OKrest d (a ++ b) := by
  intro k l r h
  cases a with
  | nil => exact hb k l r h
  | cons p a => rw [List.cons_append] at h; injection h with h1 h2; exact ha k l a (by rw [h1])

theorem seg_append {d : Nat} {a b : L S C V} {ta tb} (ha : Seg d a ta) (hb : Seg d b tb) : Seg d (a ++ b) (ta ++ tb) := by
  refine ⟨okrest_append ha.1 hb.1, fun rest after r2 ho hr => ?_⟩
  rw [List.append_assoc, List.append_assoc]
  exact ha.2 _ _ _ (okrest_append hb.1 ho) (hb.2 _ _ _ ho hr)

theorem seg_node {d : Nat} (l : PLine S C V) {b : L S C V} {tb} (hb : Seg (d + 1) b tb) :
    Seg d ((d, l) :: b) [.node l tb] := by
  refine ⟨fun k l' r h => by injection h with h1 _; injection h1 with h1 _; omega, fun rest after r2 ho hr => ?_⟩
  have hstop : Reads (d + 1) rest [] rest := .stop (fun k l r h => by have := ho k l r h; omega)
  have := hb.2 rest [] rest (fun k l r h => by have := ho k l r h; omega) hstop
  rw [List.append_nil] at this
  exact .node this hr

theorem seg_line {d : Nat} (l : PLine S C V) : Seg d [(d, l)] [.node l []] := seg_node l (seg_nil (d + 1))

theorem seg_read {ls : L S C V} {ts} (h : Seg 0 ls ts) (hn : ∀ p ∈ ls, isNoise p.2 = false) :
    readText ls = some ts := by
  have hf : ls.filter (fun p => !isNoise p.2) = ls := by
    rw [List.filter_eq_self]
    intro p hp
    simp [hn p hp]
  have hr : Reads 0 ls ts [] := by
    have := h.2 [] [] [] (fun _ _ _ h => by simp at h) (.stop (fun _ _ _ h => by simp at h))
    simpa using this
  unfold readText
  simp only [hf]
  rw [reads_eq hr _ (Nat.le_refl _)]
  rfl

/-! ### Filtering comments -/

/-- The lines that count. -/
def F (ls : L S C V) : L S C V := ls.filter (fun p => !isNoise p.2)

theorem F_append (a b : L S C V) : F (a ++ b) = F a ++ F b := List.filter_append a b

theorem F_read (ls : L S C V) : readText ls = readText (F ls) := by
  unfold readText F
  simp only [List.filter_filter, Bool.and_self]

theorem addIndents_append (d : Nat) (a b : List (Item S C V)) :
    addIndents d (a ++ b) = addIndents d a ++ addIndents d b := by
  induction a with
  | nil => rfl
  | cons i a ih => simp [addIndents, ih]

theorem F_noise (d : Nat) (ls : List Bool) : F (addIndents d (ls.map (noiseLine : Bool → Item S C V))) = [] := by
  induction ls with
  | nil => rfl
  | cons b ls ih =>
    rw [List.map_cons, addIndents, F_append, ih, List.append_nil]
    cases b <;> rfl

theorem F_noiseBlocks (d : Nat) (cs : List (List Bool)) :
    F (addIndents d (cs.map (fun ls => (.block (ls.map noiseLine) : Item S C V)))) = [] := by
  induction cs with
  | nil => rfl
  | cons b cs ih =>
    rw [List.map_cons, addIndents, F_append, ih, List.append_nil, indentItem, F_noise]

/-! ### Parsing sequences -/

def starts (ts : List (Tree S C V)) : Bool := startsElse ts || startsFinally ts

/-- `ts` parses as `ps` in front of anything that does not continue a compound statement. -/
def PP (ts : List (Tree S C V)) (ps : List (PStmt S C V)) : Prop :=
  (∀ rest, starts rest = false → starts (ts ++ rest) = false) ∧
  ∀ rest prest, starts rest = false → Parses rest prest → Parses (ts ++ rest) (ps ++ prest)

theorem pp_nil : PP ([] : List (Tree S C V)) [] := ⟨fun _ h => h, fun _ _ _ h => h⟩

theorem pp_append {a b : List (Tree S C V)} {pa pb} (ha : PP a pa) (hb : PP b pb) : PP (a ++ b) (pa ++ pb) := by
  refine ⟨fun rest h => ?_, fun rest prest h hp => ?_⟩
  · rw [List.append_assoc]; exact ha.1 _ (hb.1 _ h)
  · rw [List.append_assoc, List.append_assoc]; exact ha.2 _ _ (hb.1 _ h) (hb.2 _ _ h hp)

theorem pp_parses {a : List (Tree S C V)} {pa} (ha : PP a pa) : Parses a pa := by
  have := ha.2 [] [] rfl .nil
  simpa using this

theorem starts_split {ts : List (Tree S C V)} (h : starts ts = false) : startsElse ts = false ∧ startsFinally ts = false := by
  simpa [starts] using h

/-! ### Running sequences -/

theorem andThen_assoc (r : Res E σ) (f g : σ → Res E σ) :
    andThen (andThen r f) g = andThen r (fun s => andThen (f s) g) := by
  match r with
  | none => rfl
  | some (.normal, s) => rfl
  | some (.exit, s) => rfl
  | some (.loop, s) => rfl
  | some (.ret, s) => rfl
  | some (.err e, s) => rfl

theorem andThen_normal (r : Res E σ) : andThen r (fun s => some (.normal, s)) = r := by
  match r with
  | none => rfl
  | some (.normal, s) => rfl
  | some (.exit, s) => rfl
  | some (.loop, s) => rfl
  | some (.ret, s) => rfl
  | some (.err e, s) => rfl

theorem pys_append (W : World S C V X E σ) (n : Nat) (cur : Option E) (a b : List (PStmt S C V)) (s : σ) :
    pys W n cur (a ++ b) s = andThen (pys W n cur a s) (pys W n cur b) := by
  induction a generalizing s with
  | nil => simp [pys, andThen]
  | cons x a ih =>
    rw [List.cons_append, pys, pys, andThen_assoc]
    congr 1
    funext s1
    exact ih s1

theorem pys_one (W : World S C V X E σ) (n : Nat) (cur : Option E) (p : PStmt S C V) (s : σ) :
    pys W n cur [p] s = py W n cur p s := by
  rw [pys]
  exact andThen_normal _

/-! ### Statements -/

/-- Items `is` at depth `d` read as statements that mean `sem` when `reg` holds. -/
structure Conv (is : List (Item S C V)) (reg : ∀ {X E σ : Type}, World S C V X E σ → Prop)
    (sem : ∀ {X E σ : Type}, World S C V X E σ → Nat → σ → Res E σ) (ps : List (PStmt S C V)) : Prop where
  seg : ∃ ts, (∀ d, Seg d (F (addIndents d is)) ts) ∧ PP ts ps ∧ (is.all badline = true ∨ ts ≠ [])
  run : ∀ {X E σ : Type} (W : World S C V X E σ), reg W → ∀ (n : Nat) (cur : Option E) (s : σ),
    pys W n cur ps s = sem W n s

/-- The same for a block: it is never empty. -/
structure ConvB (is : List (Item S C V)) (reg : ∀ {X E σ : Type}, World S C V X E σ → Prop)
    (sem : ∀ {X E σ : Type}, World S C V X E σ → Nat → σ → Res E σ) (ps : List (PStmt S C V)) : Prop where
  seg : ∃ ts, (∀ d, Seg d (F (addIndents d is)) ts) ∧ PP ts ps ∧ ts ≠ []
  run : ∀ {X E σ : Type} (W : World S C V X E σ), reg W → ∀ (n : Nat) (cur : Option E) (s : σ),
    pys W n cur ps s = sem W n s

theorem pp_simple (x : S) : PP ([.node (.simple x) []] : List (Tree S C V)) [.simple x] :=
  ⟨fun _ _ => rfl, fun _ _ _ hp => .simple hp⟩
theorem pp_pass : PP ([.node .pass []] : List (Tree S C V)) [.pass] :=
  ⟨fun _ _ => rfl, fun _ _ _ hp => .pass hp⟩

theorem conv_addPass {is : List (Item S C V)} {reg : ∀ {X E σ : Type}, World S C V X E σ → Prop}
    {sem : ∀ {X E σ : Type}, World S C V X E σ → Nat → σ → Res E σ} {ps : List (PStmt S C V)}
    (h : Conv is reg sem ps) : ∃ ps', ConvB (addPass is) reg sem ps' := by
  obtain ⟨⟨ts, hseg, hpp, hne⟩, hrun⟩ := h
  by_cases hb : is.all badline = true
  · have he : addPass is = is ++ [.line .pass] := by unfold addPass; rw [hb]; simp
    refine ⟨ps ++ [.pass], ⟨ts ++ [.node .pass []], fun d => ?_, pp_append hpp pp_pass, by simp⟩, fun W hr n cur s => ?_⟩
    · rw [he, addIndents_append, F_append]
      exact seg_append (hseg d) (seg_line _)
    · rw [pys_append, hrun W hr]
      exact andThen_normal _
  · have hemp : is.isEmpty = false := by
      cases is with
      | nil => exact absurd rfl hb
      | cons _ _ => rfl
    have he : addPass is = is := by
      unfold addPass; rw [hemp]; simp only [Bool.false_or]; rw [if_neg hb]
    rw [he]
    exact ⟨ps, ⟨ts, hseg, hpp, hne.resolve_left hb⟩, hrun⟩

theorem conv_simple (out : List S) : ∃ ps : List (PStmt S C V),
    Conv (out.map (fun s => (.line (.simple s) : Item S C V))) (fun _ => True) (fun W _ s => foxSimple W out s) ps := by
  induction out with
  | nil => exact ⟨[], ⟨[], fun d => seg_nil d, pp_nil, .inl rfl⟩, fun W _ n cur s => rfl⟩
  | cons x out ih =>
    obtain ⟨ps, ⟨ts, hseg, hpp, _⟩, hrun⟩ := ih
    refine ⟨.simple x :: ps, ⟨.node (.simple x) [] :: ts, fun d => ?_, pp_append (pp_simple x) hpp, .inr (by simp)⟩,
      fun W hr n cur s => ?_⟩
    · have h1 : F (addIndents d (List.map (fun s => (.line (.simple s) : Item S C V)) (x :: out))) =
          [(d, .simple x)] ++ F (addIndents d (out.map (fun s => (.line (.simple s) : Item S C V)))) := rfl
      rw [h1]
      exact seg_append (seg_line _) (hseg d)
    · rw [pys, foxSimple]
      have : pys W n cur ps = foxSimple W out := funext fun s => hrun W trivial n cur s
      rw [this]
      rfl

/-- A header line with its block. -/
theorem seg_head {d : Nat} (l : PLine S C V) (is : List (Item S C V)) {tb : List (Tree S C V)} (hl : isNoise l = false)
    (hb : ∀ d, Seg d (F (addIndents d is)) tb) :
    Seg d (F (addIndents d [.line l, .block is])) [.node l tb] := by
  have : F (addIndents d [.line l, .block is]) = (d, l) :: F (addIndents (d + 1) is) := by
    have h1 : indentItem d (.line l : Item S C V) = [(d, l)] := by
      cases l with
      | blank => cases hl
      | _ => rfl
    have h2 : indentItem d (.block is : Item S C V) = addIndents (d + 1) is := by rw [indentItem]
    rw [addIndents, addIndents, addIndents, h1, h2, List.append_nil, F_append]
    simp [F, hl]
  rw [this]
  exact seg_node l (hb (d + 1))

def ParsesElse' (te : List (Tree S C V)) (pe : List (PStmt S C V)) : Prop :=
  (∀ rest, starts rest = false → startsFinally (te ++ rest) = false) ∧
  ∀ rest, starts rest = false → ParsesElse (te ++ rest) pe rest

theorem elsePart_none : ParsesElse' ([] : List (Tree S C V)) [] :=
  ⟨fun _ h => (starts_split h).2, fun _ h => .none (starts_split h).1⟩

theorem elsePart_else {b : List (Tree S C V)} {pb} (hne : b ≠ []) (hb : PP b pb) : ParsesElse' [.node .elseL b] pb :=
  ⟨fun _ _ => rfl, fun _ _ => .els hne (pp_parses hb)⟩

theorem elsePart_elif {c : PCond C} {b te : List (Tree S C V)} {pb pe} (hne : b ≠ []) (hb : PP b pb) (he : ParsesElse' te pe) :
    ParsesElse' (.node (.elifL c) b :: te) [.ifS c pb pe] :=
  ⟨fun _ _ => rfl, fun rest h => .elif hne (pp_parses hb) (he.2 rest h)⟩

theorem pp_if {c : PCond C} {b te : List (Tree S C V)} {pb pe} (hne : b ≠ []) (hb : PP b pb) (he : ParsesElse' te pe) :
    PP (.node (.ifL c) b :: te) [.ifS c pb pe] :=
  ⟨fun _ _ => rfl, fun rest _ h hp => .ifS hne (pp_parses hb) (he.2 rest h) hp⟩

theorem pp_while {c : PCond C} {b : List (Tree S C V)} {pb} (hne : b ≠ []) (hb : PP b pb) :
    PP [.node (.whileL c) b] [.whileS c pb] :=
  ⟨fun _ _ => rfl, fun _ _ h hp => .whileS hne (pp_parses hb) (starts_split h).1 hp⟩

theorem pp_for {v : V} {it : PIter C} {b : List (Tree S C V)} {pb} (hne : b ≠ []) (hb : PP b pb) :
    PP [.node (.forL v it) b] [.forS v it pb] :=
  ⟨fun _ _ => rfl, fun _ _ h hp => .forS hne (pp_parses hb) (starts_split h).1 hp⟩

theorem pp_try {b h : List (Tree S C V)} {pb ph} (hnb : b ≠ []) (hnh : h ≠ []) (hb : PP b pb) (hh : PP h ph) :
    PP [.node .tryL b, .node .exceptL h] [.tryS pb ph none] :=
  ⟨fun _ _ => rfl, fun _ _ hs hp =>
    .tryS hnb hnh (pp_parses hb) (pp_parses hh) (starts_split hs).1 (starts_split hs).2 hp⟩

theorem pp_tryFin {b h f : List (Tree S C V)} {pb ph pf} (hnb : b ≠ []) (hnh : h ≠ []) (hnf : f ≠ []) (hb : PP b pb)
    (hh : PP h ph) (hf : PP f pf) :
    PP [.node .tryL b, .node .exceptL h, .node .finallyL f] [.tryS pb ph (some pf)] :=
  ⟨fun _ _ => rfl, fun _ _ _ hp => .tryFin hnb hnh hnf (pp_parses hb) (pp_parses hh) (pp_parses hf) hp⟩

theorem always_normal (r : Res E σ) : always r (fun s => some (.normal, s)) = r := by
  match r with
  | none => rfl
  | some (o, s) => rfl

/-- What an else part is converted to. -/
structure ConvE (is : List (Item S C V)) (reg : ∀ {X E σ : Type}, World S C V X E σ → Prop)
    (sem : ∀ {X E σ : Type}, World S C V X E σ → Nat → σ → Res E σ) (ps : List (PStmt S C V)) : Prop where
  seg : ∃ ts, (∀ d, Seg d (F (addIndents d is)) ts) ∧ ParsesElse' ts ps
  run : ∀ {X E σ : Type} (W : World S C V X E σ), reg W → ∀ (n : Nat) (cur : Option E) (s : σ),
    pys W n cur ps s = sem W n s

/-! ### FOR -/

theorem upTo_range (step stop : Int) (hs : 0 < step) (f : Nat) (v : Int) (hf : (stop - v + 1).toNat ≤ f) :
    upTo step stop f v = pyRange v (stop + 1) step := by
  induction f generalizing v with
  | zero =>
    have h0 : stop < v := by omega
    have : (stop + 1 - v + step - 1) / step ≤ 0 := by
      have : (stop + 1 - v + step - 1) / step < 1 := Int.ediv_lt_of_lt_mul hs (by omega)
      omega
    rw [upTo, pyRange, if_pos hs, Int.toNat_of_nonpos this]
    rfl
  | succ f ih =>
    rw [upTo]
    by_cases h : v ≤ stop
    · rw [if_pos h, ih (v + step) (by omega)]
      unfold pyRange
      rw [if_pos hs, if_pos hs]
      have hd : (stop + 1 - v + step - 1) / step = (stop + 1 - (v + step) + step - 1) / step + 1 := by
        rw [← Int.add_mul_ediv_right _ _ (show step ≠ 0 by omega)]
        congr 1
        omega
      have hq : 0 ≤ (stop + 1 - (v + step) + step - 1) / step := Int.ediv_nonneg (by omega) (by omega)
      rw [hd]
      generalize (stop + 1 - (v + step) + step - 1) / step = q at hq
      have : (q + 1).toNat = q.toNat + 1 := by omega
      rw [this, List.range_succ_eq_map, List.map_cons, List.map_map]
      congr 1
      · simp
      · apply List.map_congr_left
        intro i _
        simp only [Function.comp]
        rw [Int.natCast_succ, Int.add_mul]
        omega
    · rw [if_neg h]
      have : (stop + 1 - v + step - 1) / step ≤ 0 := by
        have : (stop + 1 - v + step - 1) / step < 1 := Int.ediv_lt_of_lt_mul hs (by omega)
        omega
      rw [pyRange, if_pos hs, Int.toNat_of_nonpos this]
      rfl

theorem forValues_range (a b k : Int) (hk : 0 < k) : forValues a b k = pyRange a (b + 1) k := by
  rw [forValues, if_pos hk]
  exact upTo_range k b hk _ a (Nat.le_refl _)

theorem pyInt_value (W : World S C V X E σ) (c : C) (m : Int) (s : σ) (k : Int → σ → Res E σ) :
    value (pyInt W ⟨c, m⟩ s) k = value (W.num c s) (fun a s1 => k (a + m) s1) := by
  unfold pyInt value
  match W.num c s with
  | (.ok a, s1) => rfl
  | (.error e, s1) => rfl

theorem value_congr {α : Type} (r : Except E α × σ) (k k' : α → σ → Res E σ)
    (h : ∀ a, r.1 = .ok a → k a r.2 = k' a r.2) : value r k = value r k' := by
  match r with
  | (.ok a, s1) => exact h a rfl
  | (.error e, s1) => rfl

theorem downTo_up (step stop : Int) (f : Nat) (v : Int) :
    downTo step stop f v = (upTo (-step) (-stop) f (-v)).map (fun x => -x) := by
  induction f generalizing v with
  | zero => rfl
  | succ f ih =>
    rw [downTo, upTo]
    by_cases h : stop ≤ v
    · rw [if_pos h, if_pos (by omega), List.map_cons, ih, Int.neg_neg, Int.neg_add]
    · rw [if_neg h, if_neg (by omega)]; rfl

theorem generatedValues_range (a b k : Int) (hk : k ≠ 0) : generatedValues a b k = pyRange a (b + 1) k := by
  unfold generatedValues
  by_cases h : 0 < k
  · rw [if_pos h, forValues_range _ _ _ h]
  · rw [if_neg h, forValues, if_neg h, downTo_up, upTo_range _ _ (by omega) _ _ (by omega), pyRange, pyRange, if_neg h,
      if_pos (by omega), List.map_map]
    have e : -(b + 2) + 1 - -a + -k - 1 = a - (b + 1) + -k - 1 := by omega
    rw [e]
    apply List.map_congr_left
    intro i _
    simp only [Function.comp, Int.mul_neg]
    omega

theorem run_for (W : World S C V X E σ) (v : V) (start stop : C) (step : Option C) (body : σ → Res E σ) (s : σ) :
    (match forRange start stop step with
      | .each c => value (W.items c s) fun xs s1 => eachLoop (W.setItem v) body xs s1
      | .range start stop step =>
        value (pyInt W start s) fun a s1 =>
          value (pyInt W stop s1) fun b s2 =>
            value (match step with
                | none => (.ok 1, s2)
                | some c => pyInt W c s2) fun k s3 =>
              if k = 0 then some (.err W.zeroStep, s3)
              else eachLoop (W.setNum v) body (pyRange a b k) s3) =
    value (W.num start s) fun a s1 =>
      value (W.num stop s1) fun b s2 =>
        value (match step with
            | none => (.ok 1, s2)
            | some c => W.num c s2) fun k s3 =>
          if k = 0 then some (.err W.zeroStep, s3)
          else eachLoop (W.setNum v) body (generatedValues a b k) s3 := by
  unfold forRange
  simp only []
  rw [pyInt_value]
  apply value_congr
  intro a _
  rw [pyInt_value]
  apply value_congr
  intro b _
  cases step with
  | none =>
    show eachLoop (W.setNum v) body (pyRange (a + 0) (b + 1) 1) _ = eachLoop (W.setNum v) body (generatedValues a b 1) _
    rw [Int.add_zero, generatedValues_range _ _ _ (by decide)]
  | some c =>
    simp only [Option.map_some]
    rw [pyInt_value]
    apply value_congr
    intro k hk
    rw [Int.add_zero, Int.add_zero]
    by_cases h : k = 0
    · rw [if_pos h, if_pos h]
    · rw [if_neg h, if_neg h, generatedValues_range _ _ _ h]

mutual
theorem conv_line (x : Stmt S C V) : ∃ ps, Conv (visitLine x) (fun _ => True) (fun W n s => actual W n x s) ps := by
  match x with
  | .simple out =>
    obtain ⟨ps, h1, h2⟩ := conv_simple (C := C) (V := V) out
    exact ⟨ps, h1, fun W _ n cur s => h2 W trivial n cur s⟩
  | .noise ls =>
    refine ⟨[], ⟨[], fun d => ?_, pp_nil, .inl ?_⟩, fun W _ n cur s => rfl⟩
    · rw [visitLine, F_noise]; exact seg_nil d
    · rw [visitLine, List.all_map, List.all_eq_true]
      intro b _
      cases b <;> rfl
  | .ifS c body els =>
    obtain ⟨pb0, hb0⟩ := conv_all body
    obtain ⟨pb, ⟨tb, hsb, hpb, hnb⟩, hrb⟩ := conv_addPass hb0
    obtain ⟨pe, ⟨te, hse, hpe⟩, hre⟩ := conv_else els
    refine ⟨[.ifS (.expr c) pb pe], ⟨.node (.ifL (.expr c)) tb :: te, fun d => ?_, pp_if hnb hpb hpe, .inr (by simp)⟩,
      fun W hr n cur s => ?_⟩
    · have h1 : visitLine (.ifS c body els) = [.line (.ifL (.expr c)), .block (addPass (visitAll body))] ++ visitElse els := by
        simp [visitLine]
      rw [h1, addIndents_append, F_append]
      exact seg_append (seg_head _ _ rfl hsb) (hse d)
    · rw [pys_one, py, actual]
      have e1 : pys W n cur pb = actuals W n body := funext fun s => hrb W trivial n cur s
      have e2 : pys W n cur pe = actualOpt W n els := funext fun s => hre W trivial n cur s
      rw [e1, e2]; rfl
  | .caseS comments cases otherwise =>
    obtain ⟨po, ⟨to, hso, hpo⟩, hro⟩ := conv_else otherwise
    match cases with
    | [] =>
      refine ⟨[.ifS .tt [.pass] po], ⟨.node (.ifL .tt) [.node .pass []] :: to, fun d => ?_,
        pp_if (by simp) pp_pass hpo, .inr (by simp)⟩, fun W hr n cur s => ?_⟩
      · have h1 : visitLine (.caseS comments [] otherwise) =
            comments.map (fun ls => .block (ls.map noiseLine)) ++
              ([.line (.ifL .tt), .block [.line .pass]] ++ visitElse otherwise) := by
          simp [visitLine, visitCases]
        rw [h1, addIndents_append, F_append, F_noiseBlocks, List.nil_append, addIndents_append, F_append]
        exact seg_append (seg_head _ _ rfl (fun d => seg_line _)) (hso d)
      · rw [pys_one, py, actual]
        rfl
    | (c, ls) :: rest =>
      obtain ⟨pb0, hb0⟩ := conv_all ls
      obtain ⟨pb, ⟨tb, hsb, hpb, hnb⟩, hrb⟩ := conv_addPass hb0
      obtain ⟨pe, ⟨te, hse, hpe⟩, hre⟩ := conv_elifs rest otherwise to po hso hpo (fun _ => True)
        (fun W n s => actualOpt W n otherwise s) hro
      refine ⟨[.ifS (.expr c) pb pe], ⟨.node (.ifL (.expr c)) tb :: te, fun d => ?_, pp_if hnb hpb hpe, .inr (by simp)⟩,
        fun W hr n cur s => ?_⟩
      · have h1 : visitLine (.caseS comments ((c, ls) :: rest) otherwise) =
            comments.map (fun ls => .block (ls.map noiseLine)) ++
              ([.line (.ifL (.expr c)), .block (addPass (visitAll ls))] ++ (visitElifs rest ++ visitElse otherwise)) := by
          simp [visitLine, visitCases]
        rw [h1, addIndents_append, F_append, F_noiseBlocks, List.nil_append, addIndents_append, F_append]
        exact seg_append (seg_head _ _ rfl hsb) (hse d)
      · rw [pys_one, py, actual, actualCases]
        have e1 : pys W n cur pb = actuals W n ls := funext fun s => hrb W trivial n cur s
        have e2 : pys W n cur pe = actualCases W n (actualOpt W n otherwise) rest :=
          funext fun s => hre W ⟨trivial, trivial⟩ n cur s
        rw [e1, e2]; rfl
  | .whileS c body =>
    obtain ⟨pb0, hb0⟩ := conv_all body
    obtain ⟨pb, ⟨tb, hsb, hpb, hnb⟩, hrb⟩ := conv_addPass hb0
    refine ⟨[.whileS (.expr c) pb], ⟨[.node (.whileL (.expr c)) tb], fun d => ?_, pp_while hnb hpb, .inr (by simp)⟩,
      fun W hr n cur s => ?_⟩
    · rw [visitLine]
      exact seg_head _ _ rfl hsb
    · rw [pys_one, py, actual]
      have e1 : pys W n cur pb = actuals W n body := funext fun s => hrb W trivial n cur s
      rw [e1]; rfl
  | .forS v start stop step body =>
    obtain ⟨pb0, hb0⟩ := conv_all body
    obtain ⟨pb, ⟨tb, hsb, hpb, hnb⟩, hrb⟩ := conv_addPass hb0
    refine ⟨[.forS v (forRange start stop step) pb], ⟨[.node (.forL v (forRange start stop step)) tb], fun d => ?_,
      pp_for hnb hpb, .inr (by simp)⟩, fun W hr n cur s => ?_⟩
    · rw [visitLine]
      exact seg_head _ _ rfl hsb
    · have e1 : pys W n cur pb = actuals W n body := funext fun s => hrb W trivial n cur s
      have h := run_for W v start stop step (actuals W n body) s
      rw [pys_one, actual, py.eq_def]
      simp only []
      rw [e1]
      cases step <;> exact h
  | .eachS v c body =>
    obtain ⟨pb0, hb0⟩ := conv_all body
    obtain ⟨pb, ⟨tb, hsb, hpb, hnb⟩, hrb⟩ := conv_addPass hb0
    refine ⟨[.forS v (.each c) pb], ⟨[.node (.forL v (.each c)) tb], fun d => ?_,
      pp_for hnb hpb, .inr (by simp)⟩, fun W hr n cur s => ?_⟩
    · rw [visitLine]
      exact seg_head _ _ rfl hsb
    · have e1 : pys W n cur pb = actuals W n body := funext fun s => hrb W trivial n cur s
      rw [pys_one, py, actual, e1]
  | .withS body =>
    obtain ⟨pb0, hb0⟩ := conv_all body
    obtain ⟨pb, ⟨tb, hsb, hpb, hnb⟩, hrb⟩ := conv_addPass hb0
    refine ⟨pb, ⟨tb, fun d => ?_, hpb, .inr hnb⟩, fun W hr n cur s => ?_⟩
    · rw [visitLine]; exact hsb d
    · rw [hrb W trivial, actual]
  | .tryS body none fin =>
    obtain ⟨pb0, hb0⟩ := conv_all body
    obtain ⟨pb, ⟨tb, hsb, hpb, hnb⟩, hrb⟩ := conv_addPass hb0
    match fin with
    | none =>
      refine ⟨pb, ⟨tb, fun d => ?_, hpb, .inr hnb⟩, fun W hr n cur s => ?_⟩
      · have h1 : visitLine (.tryS body none none : Stmt S C V) = addPass (visitAll body) := by
          simp [visitLine, visitOpt]
        rw [h1]; exact hsb d
      · rw [hrb W trivial, actual]
        have e : actualOpt W n (none : Option (List (Stmt S C V))) = fun s => some (.normal, s) := by
          funext s; rw [actualOpt]
        rw [e]
        exact (andThen_normal _).symm
    | some fl =>
      obtain ⟨pf0, hf0⟩ := conv_all fl
      obtain ⟨pf, ⟨tf, hsf, hpf, hnf⟩, hrf⟩ := conv_addPass hf0
      refine ⟨pb ++ pf, ⟨tb ++ tf, fun d => ?_, pp_append hpb hpf, .inr (by simp [hnb])⟩, fun W hr n cur s => ?_⟩
      · have h1 : visitLine (.tryS body none (some fl) : Stmt S C V) =
            addPass (visitAll body) ++ addPass (visitAll fl) := by
          simp [visitLine, visitOpt]
        rw [h1, addIndents_append, F_append]
        exact seg_append (hsb d) (hsf d)
      · rw [pys_append, hrb W trivial, actual]
        have e : pys W n cur pf = actualOpt W n (some fl) := by
          funext s; rw [actualOpt]; exact hrf W trivial n cur s
        rw [e]
        rfl
  | .tryS body (some (to, when_, lines)) fin =>
    obtain ⟨pb0, hb0⟩ := conv_all body
    obtain ⟨pb, ⟨tb, hsb, hpb, hnb⟩, hrb⟩ := conv_addPass hb0
    obtain ⟨ph, ⟨th, hsh, hph, hnh⟩, hrh⟩ := conv_catch to when_ lines
    match fin with
    | none =>
      refine ⟨[.tryS pb ph none], ⟨[.node .tryL tb, .node .exceptL th], fun d => ?_, pp_try hnb hnh hpb hph, .inr (by simp)⟩,
        fun W hr n cur s => ?_⟩
      · have h1 : visitLine (.tryS body (some (to, when_, lines)) none : Stmt S C V) =
            [.line .tryL, .block (addPass (visitAll body))] ++ (.line .exceptL :: visitCatch (some (to, when_, lines))) := by
          simp [visitLine]
        rw [h1, addIndents_append, F_append]
        refine seg_append (seg_head _ _ rfl hsb) ?_
        have h2 : F (addIndents d (.line .exceptL :: visitCatch (some (to, when_, lines)) : List (Item S C V))) =
            (d, .exceptL) :: F (addIndents d (visitCatch (some (to, when_, lines)))) := rfl
        rw [h2]
        exact seg_node _ (hsh d)
      · rw [pys_one, py, actual]
        have e1 : pys W n cur pb = actuals W n body := funext fun s => hrb W trivial n cur s
        have e2 : pyOpt W n cur (none : Option (List (PStmt S C V))) = actualOpt W n (none : Option (List (Stmt S C V))) := by
          funext s; rw [pyOpt, actualOpt]
        have e3 : ∀ e s, pys W n (some e) ph s = actualCatch W n (some (to, when_, lines)) e s :=
          fun e s => hrh W trivial n e s
        rw [e1, e2, if_neg (by simp)]
        congr 1
        match actuals W n body s with
        | none => rfl
        | some (.normal, s) => rfl
        | some (.exit, s) => rfl
        | some (.loop, s) => rfl
        | some (.ret, s) => rfl
        | some (.err e, s) => exact e3 e s
    | some fl =>
      obtain ⟨pf0, hf0⟩ := conv_all fl
      obtain ⟨pf, ⟨tf, hsf, hpf, hnf⟩, hrf⟩ := conv_addPass hf0
      refine ⟨[.tryS pb ph (some pf)], ⟨[.node .tryL tb, .node .exceptL th, .node .finallyL tf], fun d => ?_,
        pp_tryFin hnb hnh hnf hpb hph hpf, .inr (by simp)⟩, fun W hr n cur s => ?_⟩
      · have h1 : visitLine (.tryS body (some (to, when_, lines)) (some fl) : Stmt S C V) =
            [.line .tryL, .block (addPass (visitAll body))] ++
              ((.line .exceptL :: visitCatch (some (to, when_, lines))) ++ [.line .finallyL, .block (addPass (visitAll fl))]) := by
          simp [visitLine, visitOpt]
        rw [h1, addIndents_append, F_append, addIndents_append, F_append]
        refine seg_append (tb := [.node .exceptL th, .node .finallyL tf]) (seg_head _ _ rfl hsb) ?_
        refine seg_append (ta := [.node .exceptL th]) ?_ (seg_head _ _ rfl hsf)
        have h2 : F (addIndents d (.line .exceptL :: visitCatch (some (to, when_, lines)) : List (Item S C V))) =
            (d, .exceptL) :: F (addIndents d (visitCatch (some (to, when_, lines)))) := rfl
        rw [h2]
        exact seg_node _ (hsh d)
      · rw [pys_one, py, actual]
        have e1 : pys W n cur pb = actuals W n body := funext fun s => hrb W trivial n cur s
        have e2 : pyOpt W n cur (some pf) = actualOpt W n (some fl) := by
          funext s; rw [pyOpt, actualOpt]; exact hrf W trivial n cur s
        have e3 : ∀ e s, pys W n (some e) ph s = actualCatch W n (some (to, when_, lines)) e s :=
          fun e s => hrh W trivial n e s
        rw [e1, e2, if_neg (by simp)]
        congr 1
        match actuals W n body s with
        | none => rfl
        | some (.normal, s) => rfl
        | some (.exit, s) => rfl
        | some (.loop, s) => rfl
        | some (.ret, s) => rfl
        | some (.err e, s) => exact e3 e s
theorem conv_catch (to : Option V) (when_ : Option C) (lines : List (Stmt S C V)) : ∃ ps : List (PStmt S C V),
    (∃ ts, (∀ d, Seg (d + 1) (F (addIndents d (visitCatch (some (to, when_, lines))))) ts) ∧ PP ts ps ∧ ts ≠ []) ∧
    (∀ {X E σ : Type} (W : World S C V X E σ), True → ∀ (n : Nat) (e : E) (s : σ),
      pys W n (some e) ps s = actualCatch W n (some (to, when_, lines)) e s) := by
  obtain ⟨pb0, hb0⟩ := conv_all lines
  obtain ⟨pb, ⟨tb, hsb, hpb, hnb⟩, hrb⟩ := conv_addPass hb0
  have blk : ∀ (d : Nat) (is : List (Item S C V)), F (addIndents d [.block is]) = F (addIndents (d + 1) is) := by
    intro d is; simp [addIndents, indentItem]
  have hbind : ∃ (ts : List (Tree S C V)) (ps : List (PStmt S C V)), (∀ d, Seg (d + 1) (F (addIndents d
        (match to with
          | none => []
          | some v => [.block [.line (.bindErr v)]] : List (Item S C V)))) ts) ∧ PP ts ps ∧
      ∀ {X E σ : Type} (W : World S C V X E σ) (n : Nat) (e : E) (s : σ),
        pys W n (some e) ps s = some (.normal, match to with
          | none => s
          | some v => W.bind v e s) := by
    match to with
    | none => exact ⟨[], [], fun d => seg_nil _, pp_nil, fun W n e s => rfl⟩
    | some v =>
      refine ⟨[.node (.bindErr v) []], [.bindErr v], fun d => ?_, ⟨fun _ _ => rfl, fun _ _ _ hp => .bindErr hp⟩,
        fun W n e s => ?_⟩
      · rw [blk]; exact seg_line _
      · rw [pys_one, py]
  have hwhen : ∃ (ts : List (Tree S C V)) (ps : List (PStmt S C V)), (∀ d, Seg (d + 1) (F (addIndents d
        (match when_ with
          | none => []
          | some w => [.block [.line (.ifL (.notE w)), .block [.line .raise]]] : List (Item S C V)))) ts) ∧ PP ts ps ∧
      ∀ {X E σ : Type} (W : World S C V X E σ) (n : Nat) (e : E) (s : σ) (k : σ → Res E σ),
        andThen (pys W n (some e) ps s) k = match when_ with
          | none => k s
          | some w => branch (W.cond w s) k (fun s2 => some (.err e, s2)) := by
    match when_ with
    | none => exact ⟨[], [], fun d => seg_nil _, pp_nil, fun W n e s k => rfl⟩
    | some w =>
      have hraise : PP ([.node .raise []] : List (Tree S C V)) [.raise] := ⟨fun _ _ => rfl, fun _ _ _ hp => .raise hp⟩
      refine ⟨[.node (.ifL (.notE w)) [.node .raise []]], [.ifS (.notE w) [.raise] []], fun d => ?_,
        pp_if (by simp) hraise elsePart_none, fun W n e s k => ?_⟩
      · rw [blk]
        exact seg_head _ _ rfl (fun d => seg_line _)
      · rw [pys_one, py, pyCond]
        simp only []
        match W.cond w s with
        | (.error e', s1) => rfl
        | (.ok true, s1) => rfl
        | (.ok false, s1) => rfl
  obtain ⟨t1, p1, s1, pp1, r1⟩ := hbind
  obtain ⟨t2, p2, s2, pp2, r2⟩ := hwhen
  refine ⟨p1 ++ (p2 ++ pb), ⟨t1 ++ (t2 ++ tb), fun d => ?_, pp_append pp1 (pp_append pp2 hpb), by simp [hnb]⟩,
    fun W trivial n e s => ?_⟩
  · rw [visitCatch.eq_def]
    simp only []
    rw [List.append_assoc, addIndents_append, F_append, addIndents_append, F_append, blk]
    exact seg_append (s1 d) (seg_append (s2 d) (hsb (d + 1)))
  · rw [pys_append, r1 W n e s, actualCatch.eq_def]
    simp only []
    have e0 : ∀ s', andThen (some (Out.normal, s')) (pys W n (some e) (p2 ++ pb)) = pys W n (some e) (p2 ++ pb) s' := fun _ => rfl
    rw [e0, pys_append]
    have e1 : pys W n (some e) pb = actuals W n lines := funext fun s => hrb W trivial n (some e) s
    rw [e1, r2 W n e]
    all_goals cases when_ <;> rfl
theorem conv_elifs (cases : List (C × List (Stmt S C V))) (otherwise : Option (List (Stmt S C V)))
    (to : List (Tree S C V)) (po : List (PStmt S C V))
    (hso : ∀ d, Seg d (F (addIndents d (visitElse otherwise))) to) (hpo : ParsesElse' to po) (rego : ∀ {X E σ : Type}, World S C V X E σ → Prop)
    (semo : ∀ {X E σ : Type}, World S C V X E σ → Nat → σ → Res E σ)
    (hro : ∀ {X E σ : Type} (W : World S C V X E σ), rego W → ∀ (n : Nat) (cur : Option E) (s : σ), pys W n cur po s = semo W n s) :
    ∃ ps, ConvE (visitElifs cases ++ visitElse otherwise) (fun W => True ∧ rego W)
      (fun W n s => actualCases W n (semo W n) cases s) ps := by
  match cases with
  | [] =>
    refine ⟨po, ⟨to, fun d => ?_, hpo⟩, fun W hr n cur s => ?_⟩
    · simpa [visitElifs] using hso d
    · rw [hro W hr.2, actualCases]
  | (c, ls) :: rest =>
    obtain ⟨pb0, hb0⟩ := conv_all ls
    obtain ⟨pb, ⟨tb, hsb, hpb, hnb⟩, hrb⟩ := conv_addPass hb0
    obtain ⟨pe, ⟨te, hse, hpe⟩, hre⟩ := conv_elifs rest otherwise to po hso hpo rego semo hro
    refine ⟨[.ifS (.expr c) pb pe], ⟨.node (.elifL (.expr c)) tb :: te, fun d => ?_, elsePart_elif hnb hpb hpe⟩,
      fun W hr n cur s => ?_⟩
    · have h1 : visitElifs ((c, ls) :: rest) ++ visitElse otherwise =
          [.line (.elifL (.expr c)), .block (addPass (visitAll ls))] ++ (visitElifs rest ++ visitElse otherwise) := by
        simp [visitElifs]
      rw [h1, addIndents_append, F_append]
      exact seg_append (seg_head _ _ rfl hsb) (hse d)
    · rw [pys_one, py, actualCases]
      have e1 : pys W n cur pb = actuals W n ls := funext fun s => hrb W trivial n cur s
      have e2 : pys W n cur pe = actualCases W n (semo W n) rest := funext fun s => hre W ⟨trivial, hr.2⟩ n cur s
      rw [e1, e2]; rfl
theorem conv_else (els : Option (List (Stmt S C V))) :
    ∃ ps, ConvE (visitElse els) (fun _ => True) (fun W n s => actualOpt W n els s) ps := by
  match els with
  | none => exact ⟨[], ⟨[], fun d => seg_nil d, elsePart_none⟩, fun W _ n cur s => by rw [pys, actualOpt]⟩
  | some ls =>
    obtain ⟨pb0, hb0⟩ := conv_all ls
    obtain ⟨pb, ⟨tb, hsb, hpb, hnb⟩, hrb⟩ := conv_addPass hb0
    refine ⟨pb, ⟨[.node .elseL tb], fun d => ?_, elsePart_else hnb hpb⟩, fun W hr n cur s => ?_⟩
    · rw [visitElse]; exact seg_head _ _ rfl hsb
    · rw [hrb W trivial, actualOpt]
theorem conv_all (ss : List (Stmt S C V)) : ∃ ps, Conv (visitAll ss) (fun _ => True) (fun W n s => actuals W n ss s) ps := by
  match ss with
  | [] => exact ⟨[], ⟨[], fun d => seg_nil d, pp_nil, .inl rfl⟩, fun W _ n cur s => by rw [pys, actuals]⟩
  | x :: xs =>
    obtain ⟨p1, ⟨t1, s1, pp1, n1⟩, r1⟩ := conv_line x
    obtain ⟨p2, ⟨t2, s2, pp2, n2⟩, r2⟩ := conv_all xs
    refine ⟨p1 ++ p2, ⟨t1 ++ t2, fun d => ?_, pp_append pp1 pp2, ?_⟩, fun W hr n cur s => ?_⟩
    · rw [visitAll, addIndents_append, F_append]
      exact seg_append (s1 d) (s2 d)
    · rw [visitAll, List.all_append]
      rcases n1 with n1 | n1
      · rcases n2 with n2 | n2
        · left; rw [n1, n2]; rfl
        · right; simp [n2]
      · right; simp [n1]
    · rw [pys_append, r1 W trivial, actuals]
      have e : pys W n cur p2 = actuals W n xs := funext fun s => r2 W trivial n cur s
      rw [e]
end

theorem F_none_noise (ls : L S C V) : ∀ p ∈ F ls, isNoise p.2 = false := by
  intro p hp
  have := (List.mem_filter.mp hp).2
  simpa using this

theorem conv_prog (prog : List (Stmt S C V)) : ∃ ps, Generated prog ps ∧
    ∀ {X E σ : Type} (W : World S C V X E σ) (n : Nat) (cur : Option E) (s : σ),
      pys W n cur ps s = actuals W n prog s := by
  obtain ⟨p0, h0⟩ := conv_all prog
  obtain ⟨ps, ⟨ts, hs, hp, _⟩, hr⟩ := conv_addPass h0
  refine ⟨ps, ⟨ts, ?_, pp_parses hp⟩, fun W n cur s => hr W trivial n cur s⟩
  rw [F_read]
  exact seg_read (hs 0) (F_none_noise _)

/-! ### Regular programs -/

theorem generatedValues_pos {a b k : Int} (hk : 0 < k) : generatedValues a b k = forValues a b k := by
  rw [generatedValues, if_pos hk]

mutual
theorem actual_eq (W : World S C V X E σ) (n : Nat) (x : Stmt S C V) (hr : Regular W x) : actual W n x = fox W n x := by
  funext s
  match x with
  | .simple out => rw [actual, fox]
  | .noise ls => rw [actual, fox]
  | .ifS c body els => rw [actual, fox, actuals_eq W n body hr.1, actualOpt_eq W n els hr.2]
  | .caseS comments [] otherwise =>
    have := hr.1 rfl
    subst this
    rw [actual, fox, foxCases, foxOpt]
    rfl
  | .caseS comments (c :: cs) otherwise =>
    rw [actual, fox, if_neg (by simp), actualCases_eq W n _ (c :: cs) hr.2.1, actualOpt_eq W n otherwise hr.2.2]
  | .whileS c body => rw [actual, fox, actuals_eq W n body hr]
  | .forS v start stop step body =>
    rw [actual, fox, actuals_eq W n body hr.2]
    apply value_congr
    intro a _
    apply value_congr
    intro b _
    apply value_congr
    intro k hk
    have : 0 < k := by
      cases step with
      | none => cases hk; decide
      | some c => exact hr.1 c rfl _ k hk
    rw [if_neg (by omega), generatedValues_pos this]
  | .eachS v c body => rw [actual, fox, actuals_eq W n body hr]
  | .withS body => rw [actual, fox, actuals_eq W n body hr]
  | .tryS body none fin =>
    have := hr.1 rfl
    subst this
    rw [actual, fox, actuals_eq W n body hr.2.1]
    have e : foxOpt W n (none : Option (List (Stmt S C V))) = fun s => some (.normal, s) := by
      funext s; rw [foxOpt]
    have e' : actualOpt W n (none : Option (List (Stmt S C V))) = fun s => some (.normal, s) := by
      funext s; rw [actualOpt]
    rw [if_pos (by rfl), e, e', always_normal, andThen_normal]
    match foxs W n body s with
    | none => rfl
    | some (.normal, s) => rfl
    | some (.exit, s) => rfl
    | some (.loop, s) => rfl
    | some (.ret, s) => rfl
    | some (.err e, s) => rfl
  | .tryS body (some (to, when_, lines)) fin =>
    rw [actual, fox, if_neg (by simp), actuals_eq W n body hr.2.1, actualOpt_eq W n fin hr.2.2.2,
      actualCatch_eq W n to when_ lines hr.2.2.1]
theorem actualCatch_eq (W : World S C V X E σ) (n : Nat) (to : Option V) (when_ : Option C) (ls : List (Stmt S C V))
    (hr : Regulars W ls) : actualCatch W n (some (to, when_, ls)) = foxCatch W n (some (to, when_, ls)) := by
  funext e s
  rw [actualCatch.eq_def, foxCatch.eq_def]
  simp only [actuals_eq W n ls hr]
theorem actualCases_eq (W : World S C V X E σ) (n : Nat) (o : σ → Res E σ) (cases : List (C × List (Stmt S C V)))
    (hr : RegularCases W cases) : actualCases W n o cases = foxCases W n o cases := by
  funext s
  match cases with
  | [] => rw [actualCases, foxCases]
  | (c, ls) :: rest => rw [actualCases, foxCases, actuals_eq W n ls hr.1, actualCases_eq W n o rest hr.2]
theorem actualOpt_eq (W : World S C V X E σ) (n : Nat) (els : Option (List (Stmt S C V))) (hr : RegularOpt W els) :
    actualOpt W n els = foxOpt W n els := by
  funext s
  match els with
  | none => rw [actualOpt, foxOpt]
  | some ls => rw [actualOpt, foxOpt, actuals_eq W n ls hr]
theorem actuals_eq (W : World S C V X E σ) (n : Nat) (ss : List (Stmt S C V)) (hr : Regulars W ss) :
    actuals W n ss = foxs W n ss := by
  funext s
  match ss with
  | [] => rw [actuals, foxs]
  | x :: xs => rw [actuals, foxs, actual_eq W n x hr.1, actuals_eq W n xs hr.2]
end

/-! ### The grammar is unambiguous -/

mutual
theorem parses_det {ts : List (Tree S C V)} {ps ps' : List (PStmt S C V)} :
    Parses ts ps → Parses ts ps' → ps = ps'
  | .nil, h' => by cases h'; rfl
  | .simple h, h' => by cases h' with | simple h1 => rw [parses_det h h1]
  | .pass h, h' => by cases h' with | pass h1 => rw [parses_det h h1]
  | .raise h, h' => by cases h' with | raise h1 => rw [parses_det h h1]
  | .bindErr h, h' => by cases h' with | bindErr h1 => rw [parses_det h h1]
  | .ifS _ hb he hr, h' => by
    cases h' with
    | ifS _ hb1 he1 hr1 =>
      obtain ⟨e1, e2⟩ := parsesElse_det he he1
      subst e2
      rw [parses_det hb hb1, e1, parses_det hr hr1]
  | .whileS _ hb _ hr, h' => by
    cases h' with
    | whileS _ hb1 _ hr1 => rw [parses_det hb hb1, parses_det hr hr1]
  | .forS _ hb _ hr, h' => by
    cases h' with
    | forS _ hb1 _ hr1 => rw [parses_det hb hb1, parses_det hr hr1]
  | .tryS _ _ hb hh _ hf hr, h' => by
    cases h' with
    | tryS _ _ hb1 hh1 _ _ hr1 => rw [parses_det hb hb1, parses_det hh hh1, parses_det hr hr1]
    | tryFin _ _ _ _ _ _ _ => simp [startsFinally] at hf
  | .tryFin _ _ _ hb hh hf hr, h' => by
    cases h' with
    | tryS _ _ _ _ _ hf1 _ => simp [startsFinally] at hf1
    | tryFin _ _ _ hb1 hh1 hf1 hr1 => rw [parses_det hb hb1, parses_det hh hh1, parses_det hf hf1, parses_det hr hr1]
theorem parsesElse_det {ts : List (Tree S C V)} {ps ps' : List (PStmt S C V)} {r r' : List (Tree S C V)} :
    ParsesElse ts ps r → ParsesElse ts ps' r' → ps = ps' ∧ r = r'
  | .none h, h' => by
    cases h' with
    | none _ => exact ⟨rfl, rfl⟩
    | els _ _ => simp [startsElse, isElse] at h
    | elif _ _ _ => simp [startsElse, isElse] at h
  | .els _ hb, h' => by
    cases h' with
    | none h => simp [startsElse, isElse] at h
    | els _ hb1 => exact ⟨parses_det hb hb1, rfl⟩
  | .elif _ hb he, h' => by
    cases h' with
    | none h => simp [startsElse, isElse] at h
    | elif _ hb1 he1 =>
      obtain ⟨e1, e2⟩ := parsesElse_det he he1
      rw [parses_det hb hb1, e1, e2]
      exact ⟨rfl, rfl⟩
end

theorem generated_det {prog : List (Stmt S C V)} {ps ps'} (h : Generated prog ps) (h' : Generated prog ps') : ps = ps' := by
  obtain ⟨ts, h1, h2⟩ := h
  obtain ⟨ts', h1', h2'⟩ := h'
  rw [h1] at h1'
  cases h1'
  exact parses_det h2 h2'

/-! ### Stripping -/

/-- Same lines but for comments, and bad together. -/
def Same (a b : List (Item S C V)) : Prop :=
  (∀ d, F (addIndents d a) = F (addIndents d b)) ∧ a.all badline = b.all badline

theorem same_refl (a : List (Item S C V)) : Same a a := ⟨fun _ => rfl, rfl⟩
theorem same_append {a b a' b' : List (Item S C V)} (h : Same a a') (h' : Same b b') : Same (a ++ b) (a' ++ b') :=
  ⟨fun d => by rw [addIndents_append, addIndents_append, F_append, F_append, h.1, h'.1],
   by rw [List.all_append, List.all_append, h.2, h'.2]⟩

theorem same_addPass {a b : List (Item S C V)} (h : Same a b) : Same (addPass a) (addPass b) := by
  have key : ∀ x : List (Item S C V), addPass x = if x.all badline then x ++ [.line .pass] else x := by
    intro x
    cases x <;> simp [addPass]
  rw [key, key, h.2]
  split
  · exact same_append h (same_refl _)
  · exact h

theorem addPass_ne (a : List (Item S C V)) : (addPass a).isEmpty = false := by
  cases a <;> simp [addPass]
  split <;> simp

theorem same_block {a b : List (Item S C V)} (h : Same a b) : Same [.block (addPass a)] [.block (addPass b)] := by
  refine ⟨fun d => ?_, ?_⟩
  · simp only [addIndents, indentItem, List.append_nil]
    exact (same_addPass h).1 (d + 1)
  · simp [badline, addPass_ne]

theorem same_head (l : PLine S C V) {a b : List (Item S C V)} (h : Same a b) :
    Same [.line l, .block (addPass a)] [.line l, .block (addPass b)] :=
  same_append (same_refl [.line l]) (same_block h)

mutual
theorem same_line (x : Stmt S C V) : Same (visitLine (strip x)) (visitLine x) := by
  match x with
  | .simple out => exact same_refl _
  | .noise ls => exact same_refl _
  | .ifS c body els =>
    simp only [strip, visitLine]
    exact same_append (same_head _ (same_all body)) (same_else els)
  | .caseS comments cases otherwise =>
    simp only [strip, visitLine]
    have h := same_append (same_cases cases) (same_else otherwise)
    have hb : (visitCases cases ++ visitElse otherwise).all badline = false := by
      cases cases <;> simp [visitCases, badline]
    revert h hb
    generalize visitCases (stripCases cases) ++ visitElse (stripOpt otherwise) = a
    generalize visitCases cases ++ visitElse otherwise = b
    intro h hb
    refine ⟨fun d => ?_, ?_⟩
    · rw [addIndents_append, addIndents_append, F_append, F_append, F_noiseBlocks, F_noiseBlocks, h.1]
    · rw [List.all_append, List.all_append, h.2, hb]; simp
  | .whileS c body =>
    simp only [strip, visitLine]
    exact same_head _ (same_all body)
  | .forS v a b k body =>
    simp only [strip, visitLine]
    exact same_head _ (same_all body)
  | .eachS v c body =>
    simp only [strip, visitLine]
    exact same_head _ (same_all body)
  | .withS body =>
    simp only [strip, visitLine]
    exact same_addPass (same_all body)
  | .tryS body none none =>
    simp only [strip, visitLine, stripCatch, stripOpt, visitOpt, Option.isNone, if_true, List.append_nil]
    exact same_addPass (same_all body)
  | .tryS body none (some fl) =>
    simp only [strip, visitLine, stripCatch, stripOpt, visitOpt, Option.isNone, if_true]
    exact same_append (same_addPass (same_all body)) (same_addPass (same_all fl))
  | .tryS body (some (to, when_, ls)) none =>
    simp only [strip, visitLine, stripCatch, stripOpt, visitOpt, Option.isNone, if_true, Bool.false_eq_true, if_false, List.append_nil]
    exact same_append (same_append (same_head _ (same_all body)) (same_refl [.line .exceptL])) (same_catch to when_ ls)
  | .tryS body (some (to, when_, ls)) (some fl) =>
    simp only [strip, visitLine, stripCatch, stripOpt, visitOpt, Option.isNone, Bool.false_eq_true, if_false]
    exact same_append (same_append (same_append (same_head _ (same_all body)) (same_refl [.line .exceptL]))
      (same_catch to when_ ls)) (same_head _ (same_all fl))
theorem same_catch (to : Option V) (when_ : Option C) (ls : List (Stmt S C V)) :
    Same (visitCatch (some (to, when_, strips ls))) (visitCatch (some (to, when_, ls))) := by
  cases to <;> cases when_ <;> simp only [visitCatch]
  · exact same_append (same_refl _) (same_block (same_all ls))
  · exact same_append (same_refl _) (same_block (same_all ls))
  · exact same_append (same_refl _) (same_block (same_all ls))
  · exact same_append (same_refl _) (same_block (same_all ls))
theorem same_cases (cases : List (C × List (Stmt S C V))) : Same (visitCases (stripCases cases)) (visitCases cases) := by
  match cases with
  | [] => exact same_refl _
  | (c, ls) :: rest =>
    simp only [stripCases, visitCases]
    exact same_append (same_head _ (same_all ls)) (same_elifs rest)
theorem same_elifs (cases : List (C × List (Stmt S C V))) : Same (visitElifs (stripCases cases)) (visitElifs cases) := by
  match cases with
  | [] => exact same_refl _
  | (c, ls) :: rest =>
    simp only [stripCases, visitElifs]
    exact same_append (same_head _ (same_all ls)) (same_elifs rest)
theorem same_else (els : Option (List (Stmt S C V))) : Same (visitElse (stripOpt els)) (visitElse els) := by
  match els with
  | none => exact same_refl _
  | some ls =>
    simp only [stripOpt, visitElse]
    exact same_head _ (same_all ls)
theorem same_all (ss : List (Stmt S C V)) : Same (visitAll (strips ss)) (visitAll ss) := by
  match ss with
  | [] => exact same_refl _
  | .noise ls :: xs =>
    simp only [strips, visitAll]
    obtain ⟨h1, h2⟩ := same_all xs
    refine ⟨fun d => ?_, ?_⟩
    · rw [addIndents_append, F_append, visitLine, F_noise, List.nil_append, h1]
    · rw [List.all_append, h2, visitLine]
      have : (ls.map (noiseLine : Bool → Item S C V)).all badline = true := by
        rw [List.all_map, List.all_eq_true]
        intro b _
        cases b <;> rfl
      rw [this, Bool.true_and]
  | .simple o :: xs => simp only [strips, visitAll]; exact same_append (same_line _) (same_all xs)
  | .ifS a b c :: xs => simp only [strips, visitAll]; exact same_append (same_line _) (same_all xs)
  | .caseS a b c :: xs => simp only [strips, visitAll]; exact same_append (same_line _) (same_all xs)
  | .whileS a b :: xs => simp only [strips, visitAll]; exact same_append (same_line _) (same_all xs)
  | .forS a b c d e :: xs => simp only [strips, visitAll]; exact same_append (same_line _) (same_all xs)
  | .eachS a b c :: xs => simp only [strips, visitAll]; exact same_append (same_line _) (same_all xs)
  | .withS a :: xs => simp only [strips, visitAll]; exact same_append (same_line _) (same_all xs)
  | .tryS a b c :: xs => simp only [strips, visitAll]; exact same_append (same_line _) (same_all xs)
end

theorem strip_read (prog : List (Stmt S C V)) : readText (generate (strips prog)) = readText (generate prog) := by
  rw [F_read, F_read (generate prog)]
  unfold generate visitLines
  rw [(same_addPass (same_all prog)).1 0]

end Props.BlocksAux
