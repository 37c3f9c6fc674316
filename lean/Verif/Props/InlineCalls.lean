import Verif.Model.InlineCalls
/-!
# C125: a call that FoxPro allows is converted with all its arguments
-/
namespace Props
open Model.InlineCalls

namespace InlineCallsSpec

/-- The numbers of arguments that FoxPro allows. -/
def Count : Fn → Nat → Prop
  | .chr, n | .val, n | .space, n | .asc, n | .len, n | .empty, n | .dtot, n | .datePart _, n | .dtos, n | .sign, n
  | .getenv, n | .math _, n | .bitnot, n | .abs, n | .int, n | .isnull, n | .charTest _, n | .fclose, n | .pathPart _, n => n = 1
  | .alen, n | .afields, n | .dow, n | .dtoc, n | .getwordcount, n | .fcreate, n | .fopen, n | .fgets, n
  | .pathTest _, n => n = 1 ∨ n = 2
  | .ascan, n => 2 ≤ n ∧ n ≤ 6
  | .ains, n | .at, n | .rat, n | .atc, n | .pad _, n | .substr, n | .fputs, n | .fwrite, n | .fseek, n => n = 2 ∨ n = 3
  | .acopy, n => 2 ≤ n ∧ n ≤ 5
  | .occurs, n | .replicate, n | .nvl, n | .evl, n | .right, n | .left, n | .bitTwo _, n | .round, n | .mod, n | .fread, n
  | .forceext, n => n = 2
  | .date, n => n = 0 ∨ n = 3
  | .datetime, n => n = 0 ∨ 3 ≤ n ∧ n ≤ 6
  | .time, n | .rand, n | .curdir, n => n ≤ 1
  | .iif, n | .between, n => n = 3
  | .textMethod m, n =>
    if m = "alltrim" ∨ m = "ltrim" ∨ m = "rtrim" then 1 ≤ n ∧ n ≤ 4 else n = 1
  | .strtran, n => 2 ≤ n ∧ n ≤ 6
  | .pi, n => n = 0
  | .bitMany _, n => 2 ≤ n ∧ n ≤ 26
  | .max, n | .min, n => 2 ≤ n ∧ n ≤ 26
  | .inlist, n => 2 ≤ n ∧ n ≤ 25

/-- The constants that have a meaning for an argument that is looked at. -/
def Meaningful : Fn → Nat → Kind → Prop
  | .strtran, 3, k => (∃ n, k = .num n ∧ 1 ≤ n) ∨ k = .code
  | .strtran, 4, k => (∃ n, k = .num n) ∨ k = .code
  | .strtran, 5, k => (∃ n, k = .num n ∧ 0 ≤ n ∧ n ≤ 3) ∨ k = .code
  | .at, 2, k | .rat, 2, k | .atc, 2, k => (∃ n, k = .num n ∧ 1 ≤ n) ∨ k = .code
  | .fopen, 1, k => (∃ n, k = .num n ∧ (n = 0 ∨ n = 1 ∨ n = 2 ∨ n = 10 ∨ n = 11 ∨ n = 12)) ∨ k = .code
  | .fcreate, 1, k => (∃ n, k = .num n ∧ 0 ≤ n ∧ n ≤ 7) ∨ k = .code
  | .dtoc, 1, k => k = .num 1 ∨ k = .code
  | .getenv, 0, k => (∃ s, k = .text s) ∨ k = .code
  | _, _, _ => True

structure Valid (f : Fn) (a : List Kind) : Prop where
  count : Count f a.length
  constants : ∀ i (k : Kind), a[i]? = some k → Meaningful f i k

/-- What it means to leave an argument out. -/
def defaultOf : Fn → Nat → Option Int
  | .at, 2 | .rat, 2 | .atc, 2 => some 1
  | .strtran, 3 => some 1
  | .strtran, 5 => some 0
  | _, _ => none

/-- The code takes account of every argument, names only modules that are imported, and can be
executed. -/
structure Faithful (f : Fn) (a : List Kind) (e : Emit) : Prop where
  args : ∀ i (k : Kind), a[i]? = some k → i ∈ e.args ∨ ∃ d, defaultOf f i = some d ∧ k = .num d
  modules : ∀ m ∈ e.modules, m ∈ e.imports
  runs : e.runs = true

/-- The calls for which this is so. -/
def Good : Fn → List Kind → Prop
  | .ains, _ | .afields, _ | .acopy, _ | .getenv, _ => False
  | .ascan, a => a.length ≤ 4
  | .at, a | .rat, a | .atc, a => a.length = 2 ∨ a[2]? = some (.num 1)
  | .dtoc, a => a.length = 1 ∨ a[1]? = some (.num 1)
  | .textMethod _, a | .pathTest _, a => a.length = 1
  | .rand, a | .curdir, a => a.length = 0
  | .bitMany _, a => a.length = 2
  | .strtran, a =>
    a[5]? ≠ some (.num 2) ∧
      (a.length ≤ 3 ∨ (∃ n, a[3]? = some (.num n)) ∨ (a.length = 6 ∧ a[5]? ≠ some (.num 0)))
  | .fopen, a => a.length = 1 ∨ a[1]? = some (.num 0) ∨ a[1]? = some (.num 1) ∨ a[1]? = some (.num 2)
  | .fcreate, a => a.length = 1 ∨ a[1]? = some (.num 0) ∨ a[1]? = some (.num 1)
  | _, _ => True

end InlineCallsSpec

open InlineCallsSpec

namespace InlineCallsAux

theorem lt_of_some {a : List Kind} {i : Nat} {k : Kind} (h : a[i]? = some k) : i < a.length := by
  obtain ⟨h, -⟩ := List.getElem?_eq_some_iff.mp h
  exact h

/-- All arguments stand in the code. -/
theorem faithful_all {f : Fn} {a : List Kind} {e : Emit} (h : ∀ i, i < a.length → i ∈ e.args)
    (hm : ∀ m ∈ e.modules, m ∈ e.imports) (hr : e.runs = true) : Faithful f a e :=
  ⟨fun i _ hk => Or.inl (h i (lt_of_some hk)), hm, hr⟩

theorem first_some {k : Nat} {a : List Kind} (h : k ≤ a.length) : first k a = some { args := List.range k } := by
  rw [first, if_neg (by omega)]

/-- For the functions of which every allowed call is right. -/
theorem good {f : Fn} {a : List Kind} {e : Emit} (he : emit f a = some e) (hg : Good f a)
    (h : ∀ i, i < a.length → i ∈ e.args)
    (hm : ∀ m ∈ e.modules, m ∈ e.imports) (hr : e.runs = true) :
    (∃ e, emit f a = some e ∧ Faithful f a e) ↔ Good f a :=
  ⟨fun _ => hg, fun _ => ⟨e, he, faithful_all h hm hr⟩⟩

theorem bad {f : Fn} {a : List Kind} (hg : ¬ Good f a) (h : ∀ e, emit f a = some e → Faithful f a e → False) :
    (∃ e, emit f a = some e ∧ Faithful f a e) ↔ Good f a :=
  ⟨fun ⟨e, he, hf⟩ => (h e he hf).elim, fun h => (hg h).elim⟩

theorem bad_runs {f : Fn} {a : List Kind} {e : Emit} (hg : ¬ Good f a) (he : emit f a = some e) (hr : e.runs = false) :
    (∃ e, emit f a = some e ∧ Faithful f a e) ↔ Good f a :=
  bad hg (fun e' he' hf => by
    rw [he] at he'; cases he'
    have := hf.runs
    rw [hr] at this
    exact absurd this (by decide))

theorem bad_none {f : Fn} {a : List Kind} (hg : ¬ Good f a) (he : emit f a = none) :
    (∃ e, emit f a = some e ∧ Faithful f a e) ↔ Good f a :=
  bad hg (fun e' he' _ => by rw [he] at he'; cases he')

theorem bad_arg {f : Fn} {a : List Kind} {e : Emit} (i : Nat) (k : Kind) (hg : ¬ Good f a) (he : emit f a = some e)
    (hi : a[i]? = some k) (ha : i ∉ e.args) (hd : ∀ d, defaultOf f i = some d → k ≠ .num d) :
    (∃ e, emit f a = some e ∧ Faithful f a e) ↔ Good f a :=
  bad hg (fun e' he' hf => by
    rw [he] at he'; cases he'
    rcases hf.args i k hi with h | ⟨d, h1, h2⟩
    · exact ha h
    · exact hd d h1 h2)

/-- Tries to show that a call with a given number of arguments is right. -/
macro "all_good" : tactic => `(tactic|
  refine good (e := _) rfl ?_ ?_ ?_ ?_ <;> first | (simp [Good, allArgs]; done) | (simp [allArgs]; omega))

theorem good_default {f : Fn} {a : List Kind} {e : Emit} (he : emit f a = some e) (hg : Good f a)
    (h : ∀ i k, a[i]? = some k → i ∈ e.args ∨ ∃ d, defaultOf f i = some d ∧ k = .num d)
    (hm : ∀ m ∈ e.modules, m ∈ e.imports) (hr : e.runs = true) :
    (∃ e, emit f a = some e ∧ Faithful f a e) ↔ Good f a :=
  ⟨fun _ => hg, fun _ => ⟨e, he, h, hm, hr⟩⟩

/-- Goes through the arguments of a given call. -/
macro "cover" : tactic => `(tactic|
  (intro i k h
   rcases i with _ | _ | _ | _ | _ | _ | i <;> simp at h <;> try subst h
   all_goals first | (refine Or.inl ?_; simp; done) | (exact Or.inr ⟨_, rfl, rfl⟩)))

end InlineCallsAux

open InlineCallsAux

/-- A call that FoxPro allows is converted to code that takes account of every argument, imports what
it needs and can be executed exactly in these cases. -/
theorem C125_call_iff (f : Fn) (a : List Kind) (hv : Valid f a) :
    (∃ e, emit f a = some e ∧ Faithful f a e) ↔ Good f a := by
  obtain ⟨hc, hm⟩ := hv
  cases f
  case max =>
    simp only [Count] at hc
    exact good (e := _) rfl (by simp [Good]) (by simp [allArgs]) (by simp [allArgs]) (by simp [allArgs]; omega)
  case min =>
    simp only [Count] at hc
    exact good (e := _) rfl (by simp [Good]) (by simp [allArgs]) (by simp [allArgs]) (by simp [allArgs]; omega)
  case inlist =>
    simp only [Count] at hc
    exact good (e := allArgs a) (by rw [emit, if_neg (by omega)]) (by simp [Good]) (by simp [allArgs]) (by simp [allArgs]) (by simp [allArgs])
  case bitMany =>
    rcases a with _ | ⟨x0, _ | ⟨x1, _ | ⟨x2, r⟩⟩⟩ <;> try simp [Count] at hc; done
    · all_good
    · exact bad_arg (e := { args := [0, 1] }) 2 x2 (by simp [Good]) (by simp [emit, first, List.range, List.range.loop]) rfl (by simp) (by simp [defaultOf])
  all_goals
    rcases a with _ | ⟨x0, _ | ⟨x1, _ | ⟨x2, _ | ⟨x3, _ | ⟨x4, _ | ⟨x5, _ | ⟨x6, r⟩⟩⟩⟩⟩⟩⟩ <;> first | (simp [Count] at hc; done) | (exfalso; revert hc; simp only [Count]; split <;> (simp; try omega); done) | skip
  all_goals try all_good
  all_goals try (refine bad_runs (e := _) ?_ rfl ?_ <;> first | (simp [Good, allArgs]; done) | (simp [Good, allArgs, arrayMethods]; done))
  case getenv.cons.nil =>
    refine bad (by simp [Good]) (fun e he hf => ?_)
    have hmod := hf.modules
    rcases x0 with s | n | _ <;> simp [emit] at he <;> subst he <;> simp [allArgs] at hmod
  case rand.cons.nil =>
    exact bad_arg 0 x0 (by simp [Good]) rfl rfl (by simp) (by simp [defaultOf])
  case curdir.cons.nil =>
    exact bad_arg 0 x0 (by simp [Good]) rfl rfl (by simp) (by simp [defaultOf])
  case dtoc.cons.cons.nil =>
    rcases hm 1 x1 rfl with rfl | rfl
    · all_good
    · exact bad_runs (by simp [Good]) rfl rfl
  case fopen.cons.cons.nil =>
    rcases hm 1 x1 rfl with ⟨n, rfl, rfl | rfl | rfl | rfl | rfl | rfl⟩ | rfl
    · all_good
    · all_good
    · all_good
    · exact bad_runs (by simp [Good]) rfl rfl
    · exact bad_runs (by simp [Good]) rfl rfl
    · exact bad_runs (by simp [Good]) rfl rfl
    · exact bad_none (by simp [Good]) rfl
  case fcreate.cons.cons.nil =>
    rcases hm 1 x1 rfl with ⟨n, rfl, h0, h7⟩ | rfl
    · rcases (by omega : n = 0 ∨ n = 1 ∨ n = 2 ∨ 3 ≤ n) with rfl | rfl | rfl | h
      · all_good
      · all_good
      · exact bad_none (by simp [Good]) rfl
      · refine bad_runs (e := { allArgs [x0, .num n] with runs := false }) (by simp [Good]; omega) ?_ rfl
        simp only [emit, openFile]
        rw [if_neg (by omega)]
    · exact bad_none (by simp [Good]) rfl
  case strtran.cons.cons.cons.cons.nil =>
    rcases hm 3 x3 rfl with ⟨n, rfl, h1⟩ | rfl
    · by_cases h : n = 1
      · subst h; exact good_default rfl (by simp [Good]) (by cover) (by simp) rfl
      · refine good_default (e := { args := [0, 1, 2, 3] }) ?_ (by simp [Good]) (by cover) (by simp) rfl
        simp [emit, strtran]; omega
    · exact bad_none (by simp [Good]) rfl
  case strtran.cons.cons.cons.cons.cons.nil =>
    rcases hm 3 x3 rfl with ⟨n, rfl, h1⟩ | rfl
    · by_cases h : n = 1
      · subst h; exact good_default rfl (by simp [Good]) (by cover) (by simp) rfl
      · refine good_default (e := { args := [0, 1, 2, 3, 4] }) ?_ (by simp [Good]) (by cover) (by simp) rfl
        simp [emit, strtran]; omega
    · exact bad_none (by simp [Good]) rfl
  case strtran.cons.cons.cons.cons.cons.cons.nil =>
    by_cases h2 : x5 = .num 2
    · subst h2
      refine bad (by simp [Good]) (fun e he hf => ?_)
      rcases hf.args 5 _ rfl with h | ⟨d, hd, hk⟩
      · rcases hm 3 x3 rfl with ⟨n, rfl, h1⟩ | rfl
        · simp only [emit, strtran] at he
          by_cases h : n < 2 <;> simp [h] at he <;> subst he <;> simp at h
        · simp [emit, strtran] at he
      · simp only [defaultOf] at hd
        cases hd; cases hk
    · by_cases h0 : x5 = .num 0
      · subst h0
        rcases hm 3 x3 rfl with ⟨n, rfl, h1⟩ | rfl
        · by_cases h : n = 1
          · subst h; exact good_default rfl (by simp [Good]) (by cover) (by simp) rfl
          · refine good_default (e := { args := [0, 1, 2, 3, 4] }) ?_ (by simp [Good]) (by cover) (by simp) rfl
            simp [emit, strtran]; omega
        · exact bad_none (by simp [Good]) rfl
      · refine good (e := allArgs [x0, x1, x2, x3, x4, x5]) ?_ (by simp [Good, h0, h2]) (by simp [allArgs]) (by simp [allArgs]) rfl
        simp [emit, strtran, h0, h2]
  all_goals
    rcases hm 2 x2 rfl with ⟨n, rfl, h1⟩ | rfl
    · by_cases h : n = 1
      · subst h; exact good_default rfl (by simp [Good]) (by cover) (by simp) rfl
      · exact bad_arg 2 _ (by simp [Good, h]) rfl rfl (by simp) (by simp [defaultOf]; omega)
    · exact bad_arg 2 _ (by simp [Good]) rfl rfl (by simp) (by simp [defaultOf])

/-- Wherever `STRTRAN(t, a, b, n)` with a start known to the conversion is written it is converted
rightly, and `AT("e", t, 2)` is not: the number of the occurrence is missing in the code. -/
example : (∃ e, emit .strtran [.code, .text "a", .text "b", .num 3] = some e ∧
      Faithful .strtran [.code, .text "a", .text "b", .num 3] e) ∧
    ¬ ∃ e, emit .at [.text "e", .code, .num 2] = some e ∧ Faithful .at [.text "e", .code, .num 2] e := by
  constructor
  · refine (C125_call_iff _ _ ⟨by simp [Count], ?_⟩).mpr (by simp [Good])
    intro i k h
    rcases i with _ | _ | _ | _ | _ | i <;> simp at h <;> subst h <;> simp [Meaningful]
  · rw [C125_call_iff _ _ ⟨by simp [Count], ?_⟩]
    · simp [Good]
    · intro i k h
      rcases i with _ | _ | _ | i <;> simp at h <;> subst h <;> simp [Meaningful]

/-- The occurrence of `AT`, `RAT` and `ATC` never changes the code. -/
theorem C125_occurrence_fails (f : Fn) (hf : f = .at ∨ f = .rat ∨ f = .atc) (x y n : Kind) :
    emit f [x, y, n] = emit f [x, y] := by
  rcases hf with rfl | rfl | rfl <;> rfl

example : emit .rat [.text ".", .code, .num 2] = some { args := [1, 0] } := by
  rw [C125_occurrence_fails .rat (by simp)]; rfl

/-- `GETENV` is written without an import, and an argument that is not a text constant is lost. -/
theorem C125_getenv_fails (k : Kind) (hk : Meaningful .getenv 0 k) :
    ∃ e, emit .getenv [k] = some e ∧ "os" ∈ e.modules ∧ e.imports = [] ∧ (k = .code → e.args = []) := by
  rcases hk with ⟨s, rfl⟩ | rfl
  · exact ⟨_, rfl, by simp, rfl, by simp⟩
  · exact ⟨_, rfl, by simp, rfl, fun _ => rfl⟩

example : ∃ e, emit .getenv [.code] = some e ∧ "os" ∈ e.modules ∧ e.imports = [] ∧ (Kind.code = .code → e.args = []) :=
  C125_getenv_fails _ (Or.inr rfl)

end Props
