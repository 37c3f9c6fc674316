import Verif.Lemmas.Blocks
/-!
# C42, C43, C44, C52, C55, C69, C70: structured statements
-/
namespace Props
open Blocks BlocksSpec Props.BlocksAux

variable {S C V X E σ : Type}

namespace BlocksDemo
/-- A small world for the examples: simple statements append a number to a log,
99 raises error 7, 98 is EXIT; expressions are numbers, conditions are true when
not 0; variable assignments are logged as well. -/
def W : World Nat Int Nat Int Int (List Int) where
  simple x s := if x = 99 then (.err 7, s) else if x = 98 then (.exit, s) else (.normal, s ++ [(x : Int)])
  cond c s := (.ok (c ≠ 0), s)
  bind v e s := s ++ [(v : Int), e]
  num c s := (.ok c, s)
  setNum _ k s := s ++ [k]
  items c s := (.ok [c, c + 1], s)
  setItem _ k s := s ++ [k]
  zeroStep := -1

abbrev St := Stmt Nat Int Nat

/-- IF, DO CASE, FOR, FOR EACH, DO WHILE, WITH and TRY nested in one another,
with comments at every level and an empty block. -/
def prog : List St :=
  [.noise [false],
   .forS 1 1 3 none
     [.ifS 1 [.noise [true, false]]  (some [.simple [5]]),
      .caseS [[false]] [(0, [.simple [6]]), (1, [.eachS 4 30 [.simple [7]]]), (1, [.simple [8]])] (some [.simple [9]])],
   .withS [.noise []],
   .tryS [.whileS 1 [.simple [10, 98]], .simple [99]] (some (some 2, some 1, [.simple [11]])) (some [.simple [12]])]

theorem prog_regular : Regulars W prog := by
  simp [prog, Regulars, Regular, RegularOpt, RegularCases, RegularCatch]
end BlocksDemo

/-! ## C44 -/

/-- C44: the generated text is correctly indented, every block has a statement
and Python reads exactly one list of statements from it. -/
theorem C44_blocks (prog : List (Stmt S C V)) :
    ∃ ps, Generated prog ps ∧ ∀ ps', Generated prog ps' → ps' = ps := by
  obtain ⟨ps, h, _⟩ := conv_prog prog
  exact ⟨ps, h, fun ps' h' => generated_det h' h⟩

example : ∃ ps, Generated BlocksDemo.prog ps := let ⟨ps, h, _⟩ := C44_blocks BlocksDemo.prog; ⟨ps, h⟩

/-- The depth of a line is the number of blocks around it: an IF in an IF. -/
example : generate ([.ifS 1 [.ifS 2 [.noise [false]] none, .simple [3]] none] : List BlocksDemo.St) =
    [(0, .ifL (.expr 1)), (1, .ifL (.expr 2)), (2, .comment), (2, .pass), (1, .simple 3)] := rfl

/-! ## C69 -/

/-- C69: what the generated code does with every program: as in FoxPro except for OTHERWISE without CASE,
FINALLY without CATCH and FOR with a step that is not positive (`actuals`). -/
theorem C69_exact (W : World S C V X E σ) (prog : List (Stmt S C V))
    (ps : List (PStmt S C V)) (hg : Generated prog ps) (n : Nat) (s : σ) :
    pys W n none ps s = actuals W n prog s := by
  obtain ⟨ps', h, hrun⟩ := conv_prog prog
  rw [generated_det hg h]
  exact hrun W n none s

example : ∃ ps, Generated ([.forS 1 5 1 (some (-1)) [.tryS [.simple [4]] none (some [.caseS [] [] (some [.simple [9]])])]] : List BlocksDemo.St) ps ∧
    pys BlocksDemo.W 5 none ps [] = some (.normal, [5, 4, 4, 4, 3, 4]) := by
  obtain ⟨ps, h, _⟩ := C44_blocks ([.forS 1 5 1 (some (-1)) [.tryS [.simple [4]] none (some [.caseS [] [] (some [.simple [9]])])]] : List BlocksDemo.St)
  refine ⟨ps, h, ?_⟩
  rw [C69_exact BlocksDemo.W _ ps h]
  decide +kernel

/-- C69 (partial): the statements that Python reads in the generated text do what
the FoxPro statements do, whatever simple statements, expressions and assignments
do, with EXIT, LOOP, RETURN and errors at any place.  Missing: FINALLY without CATCH, OTHERWISE without
CASE, STEP that is not positive (`Regulars`); see C42, C43, C55. -/
theorem C69_structured_partial (W : World S C V X E σ) (prog : List (Stmt S C V)) (hr : Regulars W prog)
    (ps : List (PStmt S C V)) (hg : Generated prog ps) (n : Nat) (s : σ) :
    pys W n none ps s = foxs W n prog s := by
  rw [C69_exact W prog ps hg, actuals_eq W n prog hr]

example : ∃ ps, Generated BlocksDemo.prog ps ∧ pys BlocksDemo.W 5 none ps [] =
    some (.normal, [1, 30, 7, 31, 7, 2, 30, 7, 31, 7, 3, 30, 7, 31, 7, 10, 2, 7, 11, 12]) := by
  obtain ⟨ps, h, _⟩ := C44_blocks BlocksDemo.prog
  refine ⟨ps, h, ?_⟩
  rw [C69_structured_partial BlocksDemo.W _ BlocksDemo.prog_regular ps h]
  decide +kernel

/-! ## C52 -/

/-- C52 (partial): comments and statements that could not be converted leave no
trace in what Python reads; everything around them, also in the same block, is
read as if they were not there.  The text of the lines is in Props.Comments. -/
theorem C52_neighbours_partial (prog : List (Stmt S C V)) (ps : List (PStmt S C V)) :
    Generated prog ps ↔ Generated (strips prog) ps := by
  unfold Generated
  rw [strip_read]

example : strips ([.noise [false], .whileS 1 [.noise [true], .simple [4], .noise [false, false]]] : List BlocksDemo.St) =
    [.whileS 1 [.simple [4]]] := rfl

/-! ## C43 -/

theorem foxCases_first (W : World S C V X E σ) (n : Nat) (o : σ → Res E σ) (pre post : List (C × List (Stmt S C V)))
    (c : C) (ls : List (Stmt S C V)) (s : σ) (hpre : ∀ x ∈ pre, W.cond x.1 s = (.ok false, s))
    (hc : W.cond c s = (.ok true, s)) : foxCases W n o (pre ++ (c, ls) :: post) s = foxs W n ls s := by
  induction pre with
  | nil => rw [List.nil_append, foxCases, hc]; rfl
  | cons p pre ih =>
    rw [List.cons_append, foxCases, hpre p (by simp)]
    exact ih (fun x hx => hpre x (by simp [hx]))

theorem foxCases_none (W : World S C V X E σ) (n : Nat) (o : σ → Res E σ) (cases : List (C × List (Stmt S C V)))
    (s : σ) (h : ∀ x ∈ cases, W.cond x.1 s = (.ok false, s)) : foxCases W n o cases s = o s := by
  induction cases with
  | nil => rw [foxCases]
  | cons p cases ih =>
    rw [foxCases, h p (by simp)]
    exact ih (fun x hx => h x (by simp [hx]))

/-- C43: the lines of the first case that holds are run, no others. -/
theorem C43_first_case (W : World S C V X E σ) (comments : List (List Bool)) (pre post : List (C × List (Stmt S C V)))
    (c : C) (ls : List (Stmt S C V)) (otherwise : Option (List (Stmt S C V)))
    (hr : RegularCases W (pre ++ (c, ls) :: post)) (hro : RegularOpt W otherwise)
    (ps : List (PStmt S C V)) (hg : Generated [.caseS comments (pre ++ (c, ls) :: post) otherwise] ps)
    (n : Nat) (s : σ) (hpre : ∀ x ∈ pre, W.cond x.1 s = (.ok false, s)) (hc : W.cond c s = (.ok true, s)) :
    pys W n none ps s = foxs W n ls s := by
  have hreg : Regulars W [.caseS comments (pre ++ (c, ls) :: post) otherwise] := ⟨⟨fun h => by simp at h, hr, hro⟩, trivial⟩
  rw [C69_structured_partial W _ hreg ps hg, foxs, fox,
    foxCases_first W n _ pre post c ls s hpre hc]
  exact andThen_normal _

example : ∃ ps, Generated ([.caseS [[false]] [(0, [.simple [6]]), (1, []), (1, [.simple [8]])] none] : List BlocksDemo.St) ps ∧
    pys BlocksDemo.W 5 none ps [3] = some (.normal, [3]) := by
  obtain ⟨ps, h, _⟩ := C44_blocks ([.caseS [[false]] [(0, [.simple [6]]), (1, []), (1, [.simple [8]])] none] : List BlocksDemo.St)
  exact ⟨ps, h, C43_first_case BlocksDemo.W _ [(0, [.simple [6]])] [(1, [.simple [8]])] 1 [] none
    (by simp [Regulars, Regular, RegularCases]) trivial ps h 5 [3] (by decide +kernel) (by decide +kernel)⟩

/-- C43 (partial): when no case holds the OTHERWISE lines are run, or nothing.
Missing: DO CASE without any CASE but with OTHERWISE. -/
theorem C43_otherwise_partial (W : World S C V X E σ) (comments : List (List Bool)) (cases : List (C × List (Stmt S C V)))
    (otherwise : Option (List (Stmt S C V)))
    (hne : cases = [] → otherwise = none) (hr : RegularCases W cases) (hro : RegularOpt W otherwise)
    (ps : List (PStmt S C V)) (hg : Generated [.caseS comments cases otherwise] ps)
    (n : Nat) (s : σ) (hc : ∀ x ∈ cases, W.cond x.1 s = (.ok false, s)) :
    pys W n none ps s = otherwise.elim (some (.normal, s)) (fun ls => foxs W n ls s) := by
  have hreg : Regulars W [.caseS comments cases otherwise] := ⟨⟨hne, hr, hro⟩, trivial⟩
  rw [C69_structured_partial W _ hreg ps hg, foxs, fox, foxCases_none W n _ cases s hc]
  cases otherwise with
  | none => rfl
  | some ls => exact andThen_normal _

example : ∃ ps, Generated ([.caseS [] [(0, [.simple [6]]), (0, [])] (some [.simple [9]])] : List BlocksDemo.St) ps ∧
    pys BlocksDemo.W 5 none ps [] = some (.normal, [9]) := by
  obtain ⟨ps, h, _⟩ := C44_blocks ([.caseS [] [(0, [.simple [6]]), (0, [])] (some [.simple [9]])] : List BlocksDemo.St)
  exact ⟨ps, h, C43_otherwise_partial BlocksDemo.W _ [(0, [.simple [6]]), (0, [])] (some [.simple [9]])
    (by simp) (by simp [Regulars, Regular, RegularCases]) ⟨trivial, trivial⟩ ps h 5 [] (by decide +kernel)⟩

/-- C43 fails: DO CASE with OTHERWISE only never runs the OTHERWISE lines, whatever they are. -/
theorem C43_otherwise_only_fails (W : World S C V X E σ) (comments : List (List Bool)) (lines : List (Stmt S C V))
    (ps : List (PStmt S C V)) (hg : Generated [.caseS comments [] (some lines)] ps) (n : Nat) (s : σ) :
    pys W n none ps s = some (.normal, s) ∧ foxs W n [.caseS comments [] (some lines)] s = foxs W n lines s := by
  refine ⟨?_, ?_⟩
  · rw [C69_exact W _ ps hg, actuals, actual]
    exact andThen_normal _
  · rw [foxs, fox, foxCases, foxOpt]
    exact andThen_normal _

example : ∃ ps, Generated ([.caseS [] [] (some [.simple [9]])] : List BlocksDemo.St) ps ∧
    foxs BlocksDemo.W 5 [.caseS [] [] (some [.simple [9]])] [] = some (.normal, [9]) := by
  obtain ⟨ps, h, _⟩ := C44_blocks ([.caseS [] [] (some [.simple [9]])] : List BlocksDemo.St)
  exact ⟨ps, h, by decide +kernel⟩

/-! ## C55 -/

/-- C55 (partial): TRY with CATCH and FINALLY.  The FINALLY lines run exactly once, after
the TRY lines when they end without error, else after the CATCH lines or the
refusal by WHEN; an abnormal end of the FINALLY lines wins, else the way the
statement ended is kept.  Missing: FINALLY without CATCH. -/
theorem C55_finally_partial (W : World S C V X E σ) (body catchLines fin : List (Stmt S C V)) (to : Option V) (when_ : Option C)
    (hb : Regulars W body) (hc : Regulars W catchLines) (hf : Regulars W fin)
    (ps : List (PStmt S C V)) (hg : Generated [.tryS body (some (to, when_, catchLines)) (some fin)] ps) (n : Nat) (s : σ) :
    pys W n none ps s = always
      (match foxs W n body s with
        | some (.err e, s1) => foxCatch W n (some (to, when_, catchLines)) e s1
        | r => r) (foxs W n fin) := by
  have hreg : Regulars W [.tryS body (some (to, when_, catchLines)) (some fin)] := ⟨⟨by simp, hb, hc, hf⟩, trivial⟩
  rw [C69_structured_partial W _ hreg ps hg, foxs, fox]
  exact andThen_normal _

example : ∃ ps, Generated ([.tryS [.simple [1, 99, 2]] (some (some 3, some 0, [.simple [4]])) (some [.simple [5]])] : List BlocksDemo.St) ps ∧
    pys BlocksDemo.W 5 none ps [] = some (.err 7, [1, 3, 7, 5]) := by
  obtain ⟨ps, h, _⟩ := C44_blocks ([.tryS [.simple [1, 99, 2]] (some (some 3, some 0, [.simple [4]])) (some [.simple [5]])] : List BlocksDemo.St)
  refine ⟨ps, h, ?_⟩
  rw [C55_finally_partial BlocksDemo.W [.simple [1, 99, 2]] [.simple [4]] [.simple [5]] (some 3) (some 0) ⟨trivial, trivial⟩ ⟨trivial, trivial⟩ ⟨trivial, trivial⟩ ps h]
  decide +kernel

/-- C55: the CATCH lines run only when the TRY lines raise and WHEN holds. -/
theorem C55_catch (W : World S C V X E σ) (body catchLines : List (Stmt S C V)) (fin : Option (List (Stmt S C V)))
    (to : Option V) (when_ : Option C)
    (hb : Regulars W body) (hc : Regulars W catchLines) (hf : RegularOpt W fin)
    (ps : List (PStmt S C V)) (hg : Generated [.tryS body (some (to, when_, catchLines)) fin] ps) (n : Nat) (s : σ) :
    (∀ o s1, foxs W n body s = some (o, s1) → (∀ e, o ≠ .err e) →
      pys W n none ps s = always (some (o, s1)) (foxOpt W n fin)) ∧
    (∀ e s1, foxs W n body s = some (.err e, s1) →
      let s2 := to.elim s1 (fun v => W.bind v e s1)
      (when_ = none → pys W n none ps s = always (foxs W n catchLines s2) (foxOpt W n fin)) ∧
      (∀ w s3, when_ = some w → W.cond w s2 = (.ok true, s3) →
        pys W n none ps s = always (foxs W n catchLines s3) (foxOpt W n fin)) ∧
      (∀ w s3, when_ = some w → W.cond w s2 = (.ok false, s3) →
        pys W n none ps s = always (some (.err e, s3)) (foxOpt W n fin))) := by
  have key : pys W n none ps s = always
      (match foxs W n body s with
        | some (.err e, s1) => foxCatch W n (some (to, when_, catchLines)) e s1
        | r => r) (foxOpt W n fin) := by
    have hreg : Regulars W [.tryS body (some (to, when_, catchLines)) fin] := ⟨⟨by simp, hb, hc, hf⟩, trivial⟩
    rw [C69_structured_partial W _ hreg ps hg, foxs, fox]
    exact andThen_normal _
  refine ⟨fun o s1 h ho => ?_, fun e s1 h => ⟨fun hw => ?_, fun w s3 hw hw' => ?_, fun w s3 hw hw' => ?_⟩⟩
  · rw [key, h]
    cases o with
    | err e => exact absurd rfl (ho e)
    | _ => rfl
  · rw [key, h, hw]; cases to <;> rfl
  · rw [key, h, hw]
    cases to with
    | none => simp only [foxCatch, Option.elim] at hw' ⊢; rw [hw']; rfl
    | some v => simp only [foxCatch, Option.elim] at hw' ⊢; rw [hw']; rfl
  · rw [key, h, hw]
    cases to with
    | none => simp only [foxCatch, Option.elim] at hw' ⊢; rw [hw']; rfl
    | some v => simp only [foxCatch, Option.elim] at hw' ⊢; rw [hw']; rfl

example : ∃ ps, Generated ([.tryS [.simple [1, 99, 2]] (some (none, some 1, [.simple [4]])) none] : List BlocksDemo.St) ps ∧
    pys BlocksDemo.W 5 none ps [] = some (.normal, [1, 4]) := by
  obtain ⟨ps, h, _⟩ := C44_blocks ([.tryS [.simple [1, 99, 2]] (some (none, some 1, [.simple [4]])) none] : List BlocksDemo.St)
  refine ⟨ps, h, ?_⟩
  have := (C55_catch BlocksDemo.W [.simple [1, 99, 2]] [.simple [4]] none none (some 1) ⟨trivial, trivial⟩ ⟨trivial, trivial⟩
    trivial ps h 5 []).2 7 [1] (by decide +kernel)
  rw [this.2.1 1 [1] rfl (by decide +kernel)]
  decide +kernel

/-- C55 fails: without CATCH the FINALLY lines run only after TRY lines that end normally; an error,
RETURN, EXIT or LOOP in the TRY lines skips them. -/
theorem C55_no_catch_fails (W : World S C V X E σ) (body fin : List (Stmt S C V)) (hb : Regulars W body) (hf : Regulars W fin)
    (ps : List (PStmt S C V)) (hg : Generated [.tryS body none (some fin)] ps) (n : Nat) (s s1 : σ) (o : Out E)
    (h : foxs W n body s = some (o, s1)) :
    (o = .normal → pys W n none ps s = foxs W n fin s1) ∧ (o ≠ .normal → pys W n none ps s = some (o, s1)) ∧
    foxs W n [.tryS body none (some fin)] s = always (some (o, s1)) (foxs W n fin) := by
  have key : pys W n none ps s = andThen (some (o, s1)) (foxs W n fin) := by
    rw [C69_exact W _ ps hg, actuals, actual, if_pos (by rfl), actuals_eq W n body hb, h]
    have e : actualOpt W n (some fin) = foxs W n fin := by
      funext s; rw [actualOpt, actuals_eq W n fin hf]
    rw [e]
    exact andThen_normal _
  rw [key]
  refine ⟨fun ho => by rw [ho]; rfl, fun ho => ?_, ?_⟩
  · cases o with
    | normal => exact absurd rfl ho
    | _ => rfl
  · rw [foxs, fox, h]
    have e : foxOpt W n (some fin) = foxs W n fin := by funext s; rw [foxOpt]
    rw [e]
    cases o <;> simp only [foxCatch] <;> exact andThen_normal _

example : ∃ ps, Generated ([.tryS [.simple [1, 99]] none (some [.simple [5]])] : List BlocksDemo.St) ps ∧
    foxs BlocksDemo.W 5 ([.simple [1, 99]] : List BlocksDemo.St) [] = some (.err 7, [1]) ∧
    foxs BlocksDemo.W 5 [.tryS [.simple [1, 99]] none (some [.simple [5]])] [] = some (.err 7, [1, 5]) := by
  obtain ⟨ps, h, _⟩ := C44_blocks ([.tryS [.simple [1, 99]] none (some [.simple [5]])] : List BlocksDemo.St)
  exact ⟨ps, h, by decide +kernel, by decide +kernel⟩

/-! ## C42 -/

theorem upTo_spec (step stop : Int) (hs : 0 < step) (f : Nat) (v : Int) (hf : (stop - v + 1).toNat ≤ f) :
    (∀ i (h : i < (upTo step stop f v).length), (upTo step stop f v)[i] = v + i * step ∧ v + i * step ≤ stop) ∧
    stop < v + (upTo step stop f v).length * step := by
  induction f generalizing v with
  | zero =>
    refine ⟨fun i h => by simp [upTo] at h, ?_⟩
    simp only [upTo, List.length_nil]
    omega
  | succ f ih =>
    by_cases h : v ≤ stop
    · have hu : upTo step stop (f + 1) v = v :: upTo step stop f (v + step) := by rw [upTo, if_pos h]
      obtain ⟨ih1, ih2⟩ := ih (v + step) (by omega)
      rw [hu]
      refine ⟨fun i hi => ?_, ?_⟩
      · cases i with
        | zero => simp [h]
        | succ i =>
          have := ih1 i (by simpa using hi)
          rw [List.getElem_cons_succ, this.1, Int.natCast_succ, Int.add_mul]
          refine ⟨by omega, ?_⟩
          have := this.2
          omega
      · rw [List.length_cons, Int.natCast_succ, Int.add_mul]
        omega
    · have hu : upTo step stop (f + 1) v = [] := by rw [upTo, if_neg h]
      rw [hu]
      refine ⟨fun i h => by simp at h, ?_⟩
      simp only [List.length_nil]
      omega

/-- C42 (partial): FOR with a positive step runs its body for `a`, `a + k`, `a + 2 k`, ..
up to the last one that does not exceed `b`, in this order.  Missing: negative
steps (`C42_down_fails`), bounds that are not integers. -/
theorem C42_for_partial (W : World S C V X E σ) (v : V) (start stop : C) (step : Option C) (body : List (Stmt S C V))
    (hb : Regulars W body) (hk : ∀ c, step = some c → ∀ s k, (W.num c s).1 = .ok k → 0 < k)
    (ps : List (PStmt S C V)) (hg : Generated [.forS v start stop step body] ps) (n : Nat) (s s1 s2 s3 : σ) (a b k : Int)
    (h1 : W.num start s = (.ok a, s1)) (h2 : W.num stop s1 = (.ok b, s2))
    (h3 : step.elim (k = 1 ∧ s3 = s2) (fun c => W.num c s2 = (.ok k, s3))) :
    ∃ values : List Int,
      pys W n none ps s = eachLoop (W.setNum v) (foxs W n body) values s3 ∧
      (∀ i (h : i < values.length), values[i] = a + i * k ∧ a + i * k ≤ b) ∧ b < a + values.length * k := by
  have hpos : 0 < k := by
    cases step with
    | none => obtain ⟨rfl, _⟩ := h3; decide
    | some c => exact hk c rfl s2 k (by rw [show W.num c s2 = (.ok k, s3) from h3])
  refine ⟨forValues a b k, ?_, ?_⟩
  · have hreg : Regulars W [.forS v start stop step body] := ⟨⟨hk, hb⟩, trivial⟩
    rw [C69_structured_partial W _ hreg ps hg, foxs, fox]
    rw [show andThen (value (W.num start s) _) (foxs W n []) = value (W.num start s) _ from andThen_normal _]
    rw [h1]
    simp only [value]
    rw [h2]
    simp only []
    cases step with
    | none => obtain ⟨rfl, rfl⟩ := h3; rfl
    | some c => simp only [Option.elim] at h3 ⊢; rw [h3]
  · rw [forValues, if_pos hpos]
    exact upTo_spec k b hpos _ a (Nat.le_refl _)

example : ∃ ps, Generated ([.forS 1 2 9 (some 3) [.simple [0]]] : List BlocksDemo.St) ps ∧
    pys BlocksDemo.W 5 none ps [] = some (.normal, [2, 0, 5, 0, 8, 0]) := by
  obtain ⟨ps, h, _⟩ := C44_blocks ([.forS 1 2 9 (some 3) [.simple [0]]] : List BlocksDemo.St)
  refine ⟨ps, h, ?_⟩
  rw [C69_structured_partial BlocksDemo.W _ (by simp [Regulars, Regular, BlocksDemo.W]) ps h]
  decide +kernel

theorem downTo_length (stop : Int) (f : Nat) (v : Int) (hf : (v - stop + 1).toNat ≤ f) :
    (downTo (-1) stop f v).length = (v - stop + 1).toNat := by
  induction f generalizing v with
  | zero => simp [downTo]; omega
  | succ f ih =>
    rw [downTo]
    split
    · rw [List.length_cons, ih _ (by omega)]; omega
    · simp; omega

/-- C42 fails: a loop counting down by 1 from `a` to `b` has `a - b + 1` iterations
in FoxPro, the generated loop has two less (or none). -/
theorem C42_down_fails (v : V) (a b : Int) (hab : b ≤ a) :
    let it : PIter Int := forRange a b (some (-1))
    it = .range ⟨a, 0⟩ ⟨b, 1⟩ (some ⟨-1, 0⟩) ∧
    (forValues a b (-1)).length = (a - b + 1).toNat ∧
    (pyRange (a + 0) (b + 1) (-1 + 0)).length = (a - b - 1).toNat := by
  refine ⟨rfl, ?_, ?_⟩
  · rw [forValues, if_neg (by decide), downTo_length _ _ _ (Nat.le_refl _)]
  · simp only [pyRange]
    rw [if_neg (by decide)]
    simp only [List.length_map, List.length_range]
    have : (a + 0 - (b + 1) + -(-1 + 0) - 1) / -(-1 + 0) = a - b - 1 := by
      rw [show -(-1 + (0 : Int)) = 1 from rfl, Int.ediv_one]; omega
    rw [this]

theorem downTo_spec (step stop : Int) (hs : step < 0) (f : Nat) (v : Int) (hf : (v - stop + 1).toNat ≤ f) :
    (∀ i (h : i < (downTo step stop f v).length), (downTo step stop f v)[i] = v + i * step ∧ stop ≤ v + i * step) ∧
    v + (downTo step stop f v).length * step < stop := by
  rw [downTo_up]
  obtain ⟨h1, h2⟩ := upTo_spec (-step) (-stop) (by omega) f (-v) (by omega)
  refine ⟨fun i h => ?_, ?_⟩
  · have := h1 i (by simpa using h)
    rw [Int.mul_neg] at this
    rw [List.getElem_map, this.1]
    omega
  · rw [Int.mul_neg] at h2
    rw [List.length_map]
    omega

/-- C42 fails: FOR with a negative step runs its body for the values above `b + 1` only, where FoxPro
runs it for all down to `b`. -/
theorem C42_down_run_fails (W : World S C V X E σ) (v : V) (start stop step : C) (body : List (Stmt S C V))
    (hb : Regulars W body)
    (ps : List (PStmt S C V)) (hg : Generated [.forS v start stop (some step) body] ps) (n : Nat) (s s1 s2 s3 : σ) (a b k : Int)
    (h1 : W.num start s = (.ok a, s1)) (h2 : W.num stop s1 = (.ok b, s2)) (h3 : W.num step s2 = (.ok k, s3)) (hk : k < 0) :
    ∃ values all : List Int,
      pys W n none ps s = eachLoop (W.setNum v) (foxs W n body) values s3 ∧
      foxs W n [.forS v start stop (some step) body] s = eachLoop (W.setNum v) (foxs W n body) all s3 ∧
      (∀ i (h : i < values.length), values[i] = a + i * k ∧ b + 1 < a + i * k) ∧ a + values.length * k ≤ b + 1 ∧
      (∀ i (h : i < all.length), all[i] = a + i * k ∧ b ≤ a + i * k) ∧ a + all.length * k < b := by
  refine ⟨generatedValues a b k, forValues a b k, ?_, ?_, ?_⟩
  · rw [C69_exact W _ ps hg, actuals, actual]
    rw [show andThen (value (W.num start s) _) (actuals W n []) = value (W.num start s) _ from andThen_normal _]
    rw [h1]
    simp only [value]
    rw [h2]
    simp only []
    rw [h3]
    simp only []
    rw [if_neg (by omega), actuals_eq W n body hb]
  · rw [foxs, fox]
    rw [show andThen (value (W.num start s) _) (foxs W n []) = value (W.num start s) _ from andThen_normal _]
    rw [h1]
    simp only [value]
    rw [h2]
    simp only []
    rw [h3]
  · have hn : ¬ 0 < k := by omega
    rw [generatedValues, if_neg hn, forValues, if_neg hn, forValues, if_neg hn]
    obtain ⟨g1, g2⟩ := downTo_spec k (b + 2) hk _ a (Nat.le_refl _)
    obtain ⟨g3, g4⟩ := downTo_spec k b hk _ a (Nat.le_refl _)
    refine ⟨fun i h => ?_, by omega, g3, g4⟩
    have := g1 i h
    exact ⟨this.1, by omega⟩

example : ∃ ps, Generated ([.forS 1 3 1 (some (-1)) []] : List BlocksDemo.St) ps ∧
    pys BlocksDemo.W 5 none ps [] = some (.normal, [3]) ∧
    foxs BlocksDemo.W 5 [.forS 1 3 1 (some (-1)) []] [] = some (.normal, [3, 2, 1]) := by
  refine ⟨[.forS 1 (forRange 3 1 (some (-1))) [.pass]], ⟨[.node (.forL 1 (forRange 3 1 (some (-1)))) [.node .pass []]], rfl, ?_⟩,
    by decide +kernel, by decide +kernel⟩
  exact .forS (by simp) (.pass .nil) rfl .nil

/-! ## C70 -/

theorem eachLoop_left {get : σ → Int} {assign : Int → σ → σ} {body : σ → Res E σ} (hget : ∀ k s, get (assign k s) = k)
    (hbody : ∀ s, ∃ s', body s = some (.normal, s') ∧ get s' = get s) (values : List Int) (s : σ) :
    ∃ s', eachLoop assign body values s = some (.normal, s') ∧ get s' = values.getLast?.getD (get s) := by
  induction values generalizing s with
  | nil => exact ⟨s, rfl, rfl⟩
  | cons x xs ih =>
    obtain ⟨s1, h1, h2⟩ := hbody (assign x s)
    obtain ⟨s2, h3, h4⟩ := ih s1
    refine ⟨s2, ?_, ?_⟩
    · rw [eachLoop, h1]; exact h3
    · rw [h4, h2, hget]
      cases xs with
      | nil => rfl
      | cons y ys => rw [List.getLast?_cons_cons, List.getLast?_eq_some_getLast (by simp)]; rfl

/-- C70 fails: after any FOR loop with positive step that ran its body at least once
(a body that neither leaves the loop nor changes the variable), the variable is
`k` short of the value FoxPro leaves, which is the first one past the end. -/
theorem C70_left_value_fails (W : World S C V X E σ) (get : σ → Int) (v : V) (start stop : C) (step : Option C)
    (body : List (Stmt S C V)) (hb : Regulars W body) (hk : ∀ c, step = some c → ∀ s k, (W.num c s).1 = .ok k → 0 < k)
    (ps : List (PStmt S C V)) (hg : Generated [.forS v start stop step body] ps) (n : Nat) (s s1 s2 s3 : σ) (a b k : Int)
    (h1 : W.num start s = (.ok a, s1)) (h2 : W.num stop s1 = (.ok b, s2))
    (h3 : step.elim (k = 1 ∧ s3 = s2) (fun c => W.num c s2 = (.ok k, s3)))
    (hget : ∀ k s, get (W.setNum v k s) = k)
    (hbody : ∀ s, ∃ s', foxs W n body s = some (.normal, s') ∧ get s' = get s) (hab : a ≤ b) :
    ∃ (s' : σ) (m : Int), pys W n none ps s = some (.normal, s') ∧
      -- `m` is the first value of the sequence past `b`
      (b < m ∧ m - k ≤ b ∧ ∃ i : Nat, m = a + i * k) ∧ get s' = m - k := by
  obtain ⟨values, hrun, hv, hend⟩ := C42_for_partial W v start stop step body hb hk ps hg n s s1 s2 s3 a b k h1 h2 h3
  obtain ⟨s', hs, hl⟩ := eachLoop_left (get := get) (assign := W.setNum v) hget hbody values s3
  have hne : values ≠ [] := by
    rintro rfl
    simp only [List.length_nil] at hend
    omega
  have hpos : 0 < values.length := List.length_pos_iff.mpr hne
  have hlast := hv (values.length - 1) (by omega)
  have hc : ((values.length - 1 : Nat) : Int) = (values.length : Int) - 1 := by omega
  rw [hc, Int.sub_mul] at hlast
  refine ⟨s', a + values.length * k, by rw [hrun, hs], ⟨hend, by have := hlast.2; omega, _, rfl⟩, ?_⟩
  rw [hl, List.getLast?_eq_some_getLast hne, List.getLast_eq_getElem]
  simp only [Option.getD_some]
  rw [hlast.1]
  omega

/-- FOR i = 1 TO 3 leaves 3 in `i`. -/
example : let W : World Nat Int Unit Int Int Int :=
      { zeroStep := 0,
        simple := fun _ s => (.normal, s), cond := fun _ s => (.ok true, s), bind := fun _ _ s => s, num := fun c s => (.ok c, s),
        setNum := fun _ k _ => k, items := fun _ s => (.ok [], s), setItem := fun _ _ s => s }
    ∃ ps, Generated ([.forS () 1 3 none [.simple [0]]] : List (Stmt Nat Int Unit)) ps ∧
      pys W 9 none ps 0 = some (.normal, 3) := by
  intro W
  obtain ⟨ps, h, _⟩ := C44_blocks ([.forS () 1 3 none [.simple [0]]] : List (Stmt Nat Int Unit))
  refine ⟨ps, h, ?_⟩
  rw [C69_structured_partial W _ (by simp [Regulars, Regular]) ps h]
  decide +kernel

end Props
