import Verif.Props.Expr
import Verif.Props.Strings
/-!
# Functions converted in place

C48 (LEFT, RIGHT, SUBSTR, AT, RAT, OCCURS) and C49 (bit functions): the value of the
Python expression that a call becomes, for arguments that are themselves arbitrary
expressions.
-/
namespace Props
open PyExpr FoxExpr Expr Props.ExprAux Props.PyExprAux PyVal
open Spec.Strings (OccursAt Split)

variable {env : String → Val}

/-- The expression `e` has the value `v` and its code holds together without
parentheses of its own (see `Plain`). -/
def Is (env : String → Val) (e : Ex) (v : Val) : Prop := Plain e = true ∧ Typed (py env) e ∧ fox (py env) e = v

/-- The code for `e` is a Python expression of value `v`. -/
def Shows (env : String → Val) (e : Ex) (v : Val) : Prop := ∃ p, Reads (text e) p ∧ eval (py env) p = v

namespace InlineAux

theorem shows_one {f : Fn} {a : Ex} {x v : Val} (ha : Is env a x) (har : f.arity 1 = true) (hf : fits f.needs [a] = true)
    (hv : fnVal (py env) f [x] = v) : Shows env (.call f [a]) v := by
  obtain ⟨p1, t1, v1⟩ := ha
  have := C71_expression_partial (py_laws env) (.call f [a])
    (by rw [Plain, Plains, Plains, p1, hf]; simp [har])
    (by
      rw [Typed, Typeds, Typeds]
      refine ⟨⟨t1, trivial⟩, fun _ s i n h => ?_⟩
      simp [foxs] at h)
  rwa [fox, foxs, foxs, v1, hv] at this

theorem shows_two {f : Fn} {a b : Ex} {x y v : Val} (ha : Is env a x) (hb : Is env b y) (har : f.arity 2 = true)
    (hf : fits f.needs [a, b] = true) (hv : fnVal (py env) f [x, y] = v) : Shows env (.call f [a, b]) v := by
  obtain ⟨p1, t1, v1⟩ := ha
  obtain ⟨p2, t2, v2⟩ := hb
  have := C71_expression_partial (py_laws env) (.call f [a, b])
    (by rw [Plain, Plains, Plains, Plains, p1, p2, hf]; simp [har])
    (by
      rw [Typed, Typeds, Typeds, Typeds]
      refine ⟨⟨t1, t2, trivial⟩, fun _ s i n h => ?_⟩
      simp [foxs] at h)
  rwa [fox, foxs, foxs, foxs, v1, v2, hv] at this

theorem atom {e : Ex} {k : Nat} (hk : k ≤ 13) (h : strength e = 13) : decide (k ≤ strength e) = true := by
  rw [h]; exact decide_eq_true hk

theorem rfindIdx_none {s search : List Char} (hno : ∀ j, ¬ OccursAt search s j) : Model.Strings.rfindIdx s search = none := by
  have hne : search ≠ [] := fun h => hno 0 ⟨s, by simp [h]⟩
  induction s with
  | nil => simp [Model.Strings.rfindIdx, hne]
  | cons d ds ih =>
    have h1 : Model.Strings.rfindIdx ds search = none := ih (fun j ⟨t, ht⟩ => hno (j + 1) ⟨t, by simpa using ht⟩)
    have h2 : search.isPrefixOf (d :: ds) = false := by
      cases h : search.isPrefixOf (d :: ds) with
      | false => rfl
      | true =>
        obtain ⟨t, ht⟩ := List.isPrefixOf_iff_prefix.mp h
        exact absurd ⟨t, by simpa using ht.symm⟩ (hno 0)
    simp [Model.Strings.rfindIdx, h1, h2]

theorem countFuel_split {old s : List Char} {ps : List (List Char)} (hold : old ≠ []) (h : Split old s ps) :
    ∀ f, s.length < f → countFuel old f s + 1 = ps.length := by
  induction h with
  | last h =>
    intro f hf
    cases f with
    | zero => omega
    | succ f => rw [countFuel, Model.Strings.findIdx_eq_none h]; rfl
  | @step a rest ps h hr ih =>
    intro f hf
    cases f with
    | zero => omega
    | succ f =>
      have hlen : 0 < old.length := List.length_pos_iff.mpr hold
      rw [countFuel, Model.Strings.findIdx_step h]
      have hd : (a ++ old ++ rest).drop (a.length + old.length) = rest := by
        rw [← List.length_append, List.drop_left]
      simp only [hd]
      rw [ih f (by simp at hf; omega)]
      simp

end InlineAux

open InlineAux

/-! ## C48 -/

/-- `a` is `bc`, `b` is `abcbc`, every other variable is 2. -/
def envS : String → Val := fun s => if s = "a" then .str ['b', 'c'] else if s = "b" then .str ['a', 'b', 'c', 'b', 'c'] else .int 2


/-- C48: LEFT(s, n) is the first `n` characters. Missing: a receiver that is an
operation (`C71_receiver_iff`) and a negative number. -/
theorem C48_left_partial {a b : Ex} {s : List Char} {n : Int} (ha : Is env a (.str s)) (hs : strength a = 13)
    (hb : Is env b (.int n)) (hn : 0 ≤ n) : Shows env (.call .left [a, b]) (.str (s.take n.toNat)) := by
  refine shows_two ha hb rfl (by simp [Fn.needs, fits, atom (Nat.le_refl 13) hs]) ?_
  obtain ⟨m, rfl⟩ := Int.eq_ofNat_of_zero_le hn
  show Val.str (Py.slice s none (some (m : Int))) = _
  rw [Py.slice_to]; rfl

example : Shows envS (.call .left [nb, nc]) (.str ['a', 'b']) := C48_left_partial (env := envS) (a := nb) (b := nc) (s := ['a', 'b', 'c', 'b', 'c']) (n := 2) ⟨rfl, trivial, rfl⟩ rfl ⟨rfl, trivial, rfl⟩ (by decide)

/-- C48: RIGHT(s, n) is the last `n` characters. Missing: `n` = 0. -/
theorem C48_right_partial {a b : Ex} {s : List Char} {n : Int} (ha : Is env a (.str s)) (hs : strength a = 13)
    (hb : Is env b (.int n)) (hn : 0 < n) : Shows env (.call .right [a, b]) (.str (s.drop (s.length - n.toNat))) := by
  refine shows_two ha hb rfl (by simp [Fn.needs, fits, atom (Nat.le_refl 13) hs]) ?_
  show Val.str (Py.slice s (some (-n)) none) = _
  have h0 : -n < 0 := by omega
  have hk : (-n + (s.length : Int)).toNat = s.length - n.toNat := by omega
  simp only [Py.slice, Py.clampIdx, if_pos h0, hk]
  rw [List.take_of_length_le (by simp)]

example : Shows envS (.call .right [nb, nc]) (.str ['b', 'c']) := C48_right_partial (s := ['a', 'b', 'c', 'b', 'c']) (n := 2) ⟨rfl, trivial, rfl⟩ rfl ⟨rfl, trivial, rfl⟩ (by decide)

/-- C48: SUBSTR(s, i) is everything from character number `i` on. -/
theorem C48_substr_partial {a b : Ex} {s : List Char} {i : Int} (ha : Is env a (.str s)) (hs : strength a = 13)
    (hb : Is env b (.int i)) (hi : 1 ≤ i) : Shows env (.call .substr [a, b]) (.str (s.drop (i.toNat - 1))) := by
  refine shows_two ha hb rfl (by simp [Fn.needs, fits, atom (Nat.le_refl 13) hs]) ?_
  show Val.str (Py.slice s (some (i - 1)) none) = _
  have : i - 1 = ((i.toNat - 1 : Nat) : Int) := by omega
  rw [this, Py.slice_from]

example : Shows envS (.call .substr [nb, nc]) (.str ['b', 'c', 'b', 'c']) := C48_substr_partial (s := ['a', 'b', 'c', 'b', 'c']) (i := 2) ⟨rfl, trivial, rfl⟩ rfl ⟨rfl, trivial, rfl⟩ (by decide)

/-- C48: SUBSTR(s, i, n) is the `n` characters from character number `i` on. Missing: a
length of 1 behind the end. -/
theorem C48_substr_length_partial {a b c : Ex} {s : List Char} {i n : Int} (ha : Is env a (.str s)) (hs : strength a = 13)
    (hb : Is env b (.int i)) (hc : Is env c (.int n)) (hi : 1 ≤ i) (hn : 0 ≤ n) (h1 : n = 1 → i ≤ s.length) :
    Shows env (.call .substr [a, b, c]) (.str ((s.drop (i.toNat - 1)).take n.toNat)) := by
  obtain ⟨p1, t1, v1⟩ := ha
  obtain ⟨p2, t2, v2⟩ := hb
  obtain ⟨p3, t3, v3⟩ := hc
  have hslice : fnVal (py env) .substr [.str s, .int i, .int n] = .str ((s.drop (i.toNat - 1)).take n.toNat) := by
    show Val.str (Py.slice s (some (i - 1)) (some (n + (i - 1)))) = _
    have h1 : i - 1 = ((i.toNat - 1 : Nat) : Int) := by omega
    have h2 : n + (i - 1) = ((n.toNat + (i.toNat - 1) : Nat) : Int) := by omega
    rw [h2, h1, Py.slice_nat, Nat.add_sub_cancel]
  have := C71_expression_partial (py_laws env) (.call .substr [a, b, c])
    (by
      rw [Plain, Plains, Plains, Plains, Plains, p1, p2, p3]
      simp [Fn.needs, fits, hs, Fn.arity])
    (by
      rw [Typed, Typeds, Typeds, Typeds, Typeds]
      refine ⟨⟨t1, t2, t3, trivial⟩, fun _ s' i' n' h => ?_⟩
      simp only [foxs, v1, v2, v3] at h
      injection h with h1' h
      injection h with h2' h
      injection h with h3' h
      subst h1' h2' h3'
      refine ⟨⟨i, rfl⟩, ⟨n, rfl⟩, fun hone => ?_⟩
      have hone : n = 1 := by
        have : Val.int n = Val.int 1 := hone
        injection this
      subst hone
      rw [hslice]
      show indexVal (.str s) (.int (i - 1)) = _
      have hi' : i - 1 = ((i.toNat - 1 : Nat) : Int) := by omega
      have hlt : i.toNat - 1 < s.length := by have := h1 rfl; omega
      simp only [indexVal]
      rw [hi', Py.index_nat, List.getElem?_eq_getElem hlt]
      show Val.str [s[i.toNat - 1]] = Val.str ((s.drop (i.toNat - 1)).take 1)
      rw [List.drop_eq_getElem_cons hlt]; rfl)
  rwa [fox, foxs, foxs, foxs, foxs, v1, v2, v3, hslice] at this

example : Shows envS (.call .substr [nb, nc, nc]) (.str ['b', 'c']) := C48_substr_length_partial (s := ['a', 'b', 'c', 'b', 'c']) (i := 2) (n := 2) ⟨rfl, trivial, rfl⟩ rfl ⟨rfl, trivial, rfl⟩ ⟨rfl, trivial, rfl⟩ (by decide) (by decide) (by decide)

/-- C48: AT(a, s) is the number of the first character of the first occurrence. -/
theorem C48_at_partial {a b : Ex} {x s : List Char} {k : Nat} (ha : Is env a (.str x)) (hb : Is env b (.str s))
    (hs : strength b = 13) (hk : OccursAt x s k) (hfirst : ∀ j, j < k → ¬ OccursAt x s j) :
    Shows env (.call .att [a, b]) (.int (k + 1)) := by
  refine shows_two ha hb rfl (by simp [Fn.needs, fits, atom (Nat.le_refl 13) hs]) ?_
  show bin .add (callMeth s "find" [.str x]) (.int 1) = _
  simp only [callMeth, if_true, Model.Strings.find, Model.Strings.findIdx_eq hk hfirst]
  rfl

example : Shows envS (.call .att [na, nb]) (.int 2) :=
  C48_at_partial (x := ['b', 'c']) (s := ['a', 'b', 'c', 'b', 'c']) (k := 1) ⟨rfl, trivial, rfl⟩ ⟨rfl, trivial, rfl⟩ rfl ⟨_, rfl⟩
    (fun j hj ⟨t, h⟩ => by have : j = 0 := by omega
                           subst this; simp at h)

/-- C48: AT(a, s) is 0 if there is no occurrence. -/
theorem C48_at_none {a b : Ex} {x s : List Char} (ha : Is env a (.str x)) (hb : Is env b (.str s))
    (hs : strength b = 13) (hno : ∀ j, ¬ OccursAt x s j) : Shows env (.call .att [a, b]) (.int 0) := by
  refine shows_two ha hb rfl (by simp [Fn.needs, fits, atom (Nat.le_refl 13) hs]) ?_
  show bin .add (callMeth s "find" [.str x]) (.int 1) = _
  simp only [callMeth, if_true, Model.Strings.find, Model.Strings.findIdx_eq_none hno]
  rfl

example : Shows envS (.call .att [.str ['x'], nb]) (.int 0) :=
  C48_at_none (x := ['x']) (s := ['a', 'b', 'c', 'b', 'c']) ⟨rfl, trivial, rfl⟩ ⟨rfl, trivial, rfl⟩ rfl
    (fun j ⟨t, h⟩ => by have := List.mem_of_mem_drop (by rw [h]; exact List.mem_cons_self : 'x' ∈ List.drop j _); simp at this)

/-- C48: RAT(a, s) is the number of the first character of the last occurrence. -/
theorem C48_rat_partial {a b : Ex} {x s : List Char} {k : Nat} (ha : Is env a (.str x)) (hb : Is env b (.str s))
    (hs : strength b = 13) (hx : x ≠ []) (hk : OccursAt x s k) (hlast : ∀ j, k < j → ¬ OccursAt x s j) :
    Shows env (.call .rat [a, b]) (.int (k + 1)) := by
  refine shows_two ha hb rfl (by simp [Fn.needs, fits, atom (Nat.le_refl 13) hs]) ?_
  show bin .add (callMeth s "rfind" [.str x]) (.int 1) = _
  have h1 : ("rfind" : String) ≠ "find" := by decide
  simp only [callMeth, if_neg h1, if_true, rfindIdx_eq hx hk hlast]
  rfl

example : Shows envS (.call .rat [na, nb]) (.int 4) :=
  C48_rat_partial (x := ['b', 'c']) (s := ['a', 'b', 'c', 'b', 'c']) (k := 3) ⟨rfl, trivial, rfl⟩ ⟨rfl, trivial, rfl⟩ rfl (by decide) ⟨_, rfl⟩
    (fun j hj ⟨t, h⟩ => by
      have := congrArg List.length h
      simp at this; omega)

/-- C48: RAT(a, s) is 0 if there is no occurrence. -/
theorem C48_rat_none {a b : Ex} {x s : List Char} (ha : Is env a (.str x)) (hb : Is env b (.str s))
    (hs : strength b = 13) (hno : ∀ j, ¬ OccursAt x s j) : Shows env (.call .rat [a, b]) (.int 0) := by
  refine shows_two ha hb rfl (by simp [Fn.needs, fits, atom (Nat.le_refl 13) hs]) ?_
  show bin .add (callMeth s "rfind" [.str x]) (.int 1) = _
  have h1 : ("rfind" : String) ≠ "find" := by decide
  simp only [callMeth, if_neg h1, if_true, rfindIdx_none hno]
  rfl

example : ∀ j, ¬ OccursAt ['x'] ['a', 'b'] j := fun j ⟨t, h⟩ => by have := List.mem_of_mem_drop (by rw [h]; exact List.mem_cons_self : 'x' ∈ List.drop j _); simp at this

/-- C48: OCCURS(a, s) is the number of occurrences that cut `s` into the pieces `ps`. -/
theorem C48_occurs_partial {a b : Ex} {x s : List Char} {ps : List (List Char)} (ha : Is env a (.str x)) (hb : Is env b (.str s))
    (hs : strength b = 13) (hx : x ≠ []) (h : Split x s ps) :
    Shows env (.call .occurs [a, b]) (.int (ps.length - 1)) := by
  refine shows_two ha hb rfl (by simp [Fn.needs, fits, atom (Nat.le_refl 13) hs]) ?_
  show callMeth s "count" [.str x] = _
  have h1 : ("count" : String) ≠ "find" := by decide
  have h2 : ("count" : String) ≠ "rfind" := by decide
  simp only [callMeth, if_neg h1, if_neg h2, if_true, PyVal.count, if_neg hx]
  have := countFuel_split hx h (s.length + 1) (by omega)
  congr 1
  omega

section

-- the hypotheses are met by variables, constants and calls
example : Is envS nb (.str ['a', 'b', 'c', 'b', 'c']) ∧ strength nb = 13 ∧ Is envS nc (.int 2) ∧
    Is envS (.bin .add nc (.int 1)) (.int 3) :=
  ⟨⟨rfl, trivial, rfl⟩, rfl, ⟨rfl, trivial, rfl⟩, ⟨rfl, by simp [Typed, nc], rfl⟩⟩
example : OccursAt ['b', 'c'] ['a', 'b', 'c', 'b', 'c'] 1 ∧ OccursAt ['b', 'c'] ['a', 'b', 'c', 'b', 'c'] 3 ∧
    ¬ OccursAt ['b', 'c'] ['a', 'b', 'c', 'b', 'c'] 0 := ⟨⟨_, rfl⟩, ⟨_, rfl⟩, fun ⟨t, h⟩ => by simp at h⟩
example : Split ['b'] ['a', 'b', 'c'] [['a'], ['c']] :=
  .step (a := ['a']) (rest := ['c']) (fun k hk ⟨t, h⟩ => by simp at hk; subst hk; simp at h)
    (.last fun k ⟨t, h⟩ => by cases k with
      | zero => simp at h
      | succ k => simp at h)

/-- C48 does not hold for RIGHT(s, 0), which is the whole string. -/
theorem C48_right_fails (s : List Char) (h : env "s" = .str s) : Shows env (.call .right [.name "s", .int 0]) (.str s) := by
  refine ⟨.sliceFrom (.name "s") (.neg (.int 0)), ⟨20, rfl⟩, ?_⟩
  show (py env).sliceFrom (env "s") _ = _
  rw [h]
  show Val.str (Py.slice s (some (0 : Nat)) none) = _
  rw [Py.slice_from]; rfl

/-- Nor for LEFT with a negative number: LEFT(s, -2) lacks the last two characters
instead of being empty. -/
theorem C48_left_fails {a b : Ex} {s : List Char} {n : Int} (ha : Is env a (.str s)) (hs : strength a = 13)
    (hb : Is env b (.int n)) (hn : n < 0) : Shows env (.call .left [a, b]) (.str (s.take (s.length - n.natAbs))) := by
  refine shows_two ha hb rfl (by simp [Fn.needs, fits, atom (Nat.le_refl 13) hs]) ?_
  show Val.str (Py.slice s none (some n)) = _
  have hk : (n + (s.length : Int)).toNat = s.length - n.natAbs := by omega
  simp [Py.slice, Py.clampIdx, if_pos hn, hk]

example : Shows envS (.call .left [nb, .minus (.int 2)]) (.str ['a', 'b', 'c']) :=
  C48_left_fails (env := envS) (a := nb) (b := .minus (.int 2)) (s := ['a', 'b', 'c', 'b', 'c']) (n := -2) ⟨rfl, trivial, rfl⟩ rfl ⟨rfl, trivial, rfl⟩ (by decide)

/-- Nor for SUBSTR of one character behind the end, which is an IndexError. -/
theorem C48_substr_fails {v : String} {s : List Char} {k : Nat} (h : (py env).name v = .str s) (hk : s.length < k) :
    Shows env (.call .substr [.name v, .int k, .int 1]) .err := by
  obtain ⟨j, rfl⟩ : ∃ j, k = j + 1 := ⟨k - 1, by omega⟩
  refine ⟨.index (.name v) (.int j), ⟨20, ?_⟩, ?_⟩
  · have : text (.call .substr [.name v, .int (j + 1), .int 1]) = [.name v, .lb, .int j, .rb] := by
      have e : ∀ k : Nat, text (.call .substr [.name v, .int k, .int 1]) = .name v :: .lb :: (pyRepr (pyPred (.int k)) ++ [.rb]) := fun _ => rfl
      have p : pyPred (.int ((j + 1 : Nat) : Int)) = .int j := by simp [pyPred]
      rw [e, p]; rfl
    rw [this]; rfl
  · show indexVal ((py env).name v) (.int j) = .err
    rw [h]
    simp only [indexVal, Py.index_nat, List.getElem?_eq_none (show s.length ≤ j by omega)]

example : Shows envS (.call .substr [nb, .int 6, .int 1]) .err :=
  C48_substr_fails (s := ['a', 'b', 'c', 'b', 'c']) (by decide +kernel) (by decide)

/-- Nor for AT of an empty string, which is 1 instead of 0. -/
theorem C48_at_fails (s : List Char) (h : env "s" = .str s) : Shows env (.call .att [.str [], .name "s"]) (.int 1) := by
  have hs : Is env (.name "s") (.str s) := ⟨rfl, trivial, h⟩
  exact C48_at_partial (k := 0) ⟨rfl, trivial, rfl⟩ hs rfl ⟨s, rfl⟩ (fun j hj => absurd hj (Nat.not_lt_zero j))

example : envS "b" = .str ['a', 'b', 'c', 'b', 'c'] := rfl
end

/-! ## C49 -/

namespace InlineAux

theorem shows_bit {f : BitFn} {a b : Ex} {x y : Nat} {v : Val} (ha : Is env a (.int x)) (hb : Is env b (.int y))
    (hv : bitVal (py env) f (.int x) (.int y) = v) : Shows env (.call (.bit f) [a, b]) v :=
  shows_two ha hb (by cases f <;> rfl) (by simp [Fn.needs, fits]) hv

theorem testBit_one (n i : Nat) : (1 <<< n).testBit i = decide (i = n) := by
  rw [Nat.one_shiftLeft, Nat.testBit_two_pow]
  simp [eq_comm]

theorem testBit_mask (i : Nat) : (4294967295 : Nat).testBit i = decide (i < 32) := by
  have : (4294967295 : Nat) = 2 ^ 32 - 1 := by decide
  rw [this, Nat.testBit_two_pow_sub_one]

end InlineAux

/-- C49: BITAND, BITOR and BITXOR combine bit by bit. -/
theorem C49_logical {a b : Ex} {x y : Nat} (ha : Is env a (.int x)) (hb : Is env b (.int y)) :
    (∃ r : Nat, Shows env (.call (.bit .and) [a, b]) (.int r) ∧ ∀ i, r.testBit i = (x.testBit i && y.testBit i)) ∧
    (∃ r : Nat, Shows env (.call (.bit .or) [a, b]) (.int r) ∧ ∀ i, r.testBit i = (x.testBit i || y.testBit i)) ∧
    (∃ r : Nat, Shows env (.call (.bit .xor) [a, b]) (.int r) ∧ ∀ i, r.testBit i = (x.testBit i != y.testBit i)) :=
  ⟨⟨x &&& y, shows_bit ha hb rfl, fun i => Nat.testBit_and x y i⟩, ⟨x ||| y, shows_bit ha hb rfl, fun i => Nat.testBit_or x y i⟩,
    ⟨x ^^^ y, shows_bit ha hb rfl, fun i => by rw [Nat.testBit_xor]⟩⟩

example : ∃ r : Nat, Shows envS (.call (.bit .and) [nc, .int 3]) (.int r) ∧ ∀ i, r.testBit i = ((2 : Nat).testBit i && (3 : Nat).testBit i) :=
  (C49_logical (env := envS) (a := nc) (b := .int 3) (x := 2) (y := 3) ⟨rfl, trivial, rfl⟩ ⟨rfl, trivial, rfl⟩).1

/-- C49: BITSET sets the addressed bit and no other. -/
theorem C49_bitset {a b : Ex} {x n : Nat} (ha : Is env a (.int x)) (hb : Is env b (.int n)) :
    ∃ r : Nat, Shows env (.call (.bit .set) [a, b]) (.int r) ∧ r.testBit n = true ∧ ∀ i, i ≠ n → r.testBit i = x.testBit i := by
  refine ⟨x ||| (1 <<< n), shows_bit ha hb rfl, ?_, fun i hi => ?_⟩
  · rw [Nat.testBit_or, testBit_one]; simp
  · rw [Nat.testBit_or, testBit_one]; simp [hi]

example : ∃ r : Nat, Shows envS (.call (.bit .set) [.int 5, nc]) (.int r) ∧ r.testBit 2 = true ∧ ∀ i, i ≠ 2 → r.testBit i = (5 : Nat).testBit i :=
  C49_bitset (x := 5) (n := 2) ⟨rfl, trivial, rfl⟩ ⟨rfl, trivial, rfl⟩

/-- C49: BITCLEAR clears the addressed bit and no other. -/
theorem C49_bitclear {a b : Ex} {x n : Nat} (ha : Is env a (.int x)) (hb : Is env b (.int n)) (hx : x < 2 ^ 32) (hn : n < 32) :
    ∃ r : Nat, Shows env (.call (.bit .clear) [a, b]) (.int r) ∧ r.testBit n = false ∧ ∀ i, i ≠ n → r.testBit i = x.testBit i := by
  refine ⟨x &&& ((1 <<< n) ^^^ 4294967295), shows_bit ha hb rfl, ?_, fun i hi => ?_⟩
  · rw [Nat.testBit_and, Nat.testBit_xor, testBit_one, testBit_mask]; simp [hn]
  · rw [Nat.testBit_and, Nat.testBit_xor, testBit_one, testBit_mask]
    by_cases h32 : i < 32
    · simp [hi, h32]
    · have : x.testBit i = false := Nat.testBit_lt_two_pow (Nat.lt_of_lt_of_le hx (Nat.pow_le_pow_right (by decide) (by omega)))
      simp [this]

example : ∃ r : Nat, Shows envS (.call (.bit .clear) [.int 5, nc]) (.int r) ∧ r.testBit 2 = false ∧ ∀ i, i ≠ 2 → r.testBit i = (5 : Nat).testBit i :=
  C49_bitclear (x := 5) (n := 2) ⟨rfl, trivial, rfl⟩ ⟨rfl, trivial, rfl⟩ (by decide) (by decide)

/-- C49: BITTEST tells whether the addressed bit is set. -/
theorem C49_bittest {a b : Ex} {x n : Nat} (ha : Is env a (.int x)) (hb : Is env b (.int n)) :
    Shows env (.call (.bit .test) [a, b]) (.bool (x.testBit n)) := by
  refine shows_bit ha hb ?_
  show Val.bool (decide (((x &&& (1 <<< n) : Nat) : Int) > 0)) = _
  congr 1
  cases h : x.testBit n with
  | true =>
    apply decide_eq_true
    have : (x &&& 1 <<< n).testBit n = true := by rw [Nat.testBit_and, testBit_one, h]; simp
    have : x &&& 1 <<< n ≠ 0 := fun h0 => by rw [h0] at this; simp at this
    omega
  | false =>
    apply decide_eq_false
    have : x &&& 1 <<< n = 0 := by
      apply Nat.eq_of_testBit_eq
      intro i
      rw [Nat.testBit_and, testBit_one]
      by_cases hi : i = n
      · subst hi; simp [h]
      · simp [hi]
    rw [this]; simp

example : Shows envS (.call (.bit .test) [.int 5, nc]) (.bool true) := C49_bittest (x := 5) (n := 2) ⟨rfl, trivial, rfl⟩ ⟨rfl, trivial, rfl⟩

/-- C49: shifts move every bit. BITLSHIFT is restricted to numbers whose bits stay
within 32. -/
theorem C49_shift_partial {a b : Ex} {x n : Nat} (ha : Is env a (.int x)) (hb : Is env b (.int n)) :
    (x < 2 ^ (32 - n) → ∃ r : Nat, Shows env (.call (.bit .lshift) [a, b]) (.int r) ∧ r < 2 ^ 32 ∧
      ∀ i, r.testBit i = (decide (n ≤ i) && x.testBit (i - n))) ∧
    (∃ r : Nat, Shows env (.call (.bit .rshift) [a, b]) (.int r) ∧ ∀ i, r.testBit i = x.testBit (i + n)) := by
  refine ⟨fun hx => ⟨x <<< n, shows_bit ha hb rfl, ?_, fun i => Nat.testBit_shiftLeft x⟩, ⟨x >>> n, shows_bit ha hb rfl, fun i => ?_⟩⟩
  · rw [Nat.shiftLeft_eq]
    by_cases hn : n ≤ 32
    · calc x * 2 ^ n < 2 ^ (32 - n) * 2 ^ n := Nat.mul_lt_mul_of_pos_right hx (Nat.two_pow_pos n)
        _ = 2 ^ 32 := by rw [← Nat.pow_add, Nat.sub_add_cancel hn]
    · have : 32 - n = 0 := by omega
      rw [this] at hx
      have : x = 0 := by omega
      simp [this]
  · rw [Nat.testBit_shiftRight, Nat.add_comm]

example : ∃ r : Nat, Shows envS (.call (.bit .lshift) [.int 5, nc]) (.int r) ∧ r < 2 ^ 32 ∧
    ∀ i, r.testBit i = (decide (2 ≤ i) && (5 : Nat).testBit (i - 2)) :=
  (C49_shift_partial (env := envS) (a := .int 5) (b := nc) (x := 5) (n := 2) ⟨rfl, trivial, rfl⟩ ⟨rfl, trivial, rfl⟩).1 (by decide)

/-- C49: BITNOT inverts the 32 bits of a number in two's complement. -/
theorem C49_bitnot {a : Ex} {x : Nat} (ha : Is env a (.int x)) (hx : x < 2 ^ 31) :
    ∃ r : Int, Shows env (.call .bitnot [a]) (.int r) ∧ -(2 ^ 31) ≤ r ∧ r < 0 ∧
      ∀ i, i < 32 → (r + 2 ^ 32).toNat.testBit i = !x.testBit i := by
  refine ⟨-x - 1, shows_one ha rfl (by simp [Fn.needs, fits]) rfl, by omega, by omega, fun i hi => ?_⟩
  have : (-(x : Int) - 1 + 2 ^ 32).toNat = 2 ^ 32 - (x + 1) := by omega
  rw [this, Nat.testBit_two_pow_sub_succ (by omega)]
  simp [hi]

example : Is envS nc (.int (2 : Nat)) ∧ (2 : Nat) < 2 ^ 31 ∧ (2 : Nat) < 2 ^ (32 - 30) := ⟨⟨rfl, trivial, rfl⟩, by decide, by decide⟩

/-- C49 does not hold for bits that leave the 32-bit integers: BITLSHIFT keeps them all, and the
result is no 32-bit integer as soon as the number does not fit. -/
theorem C49_shift_fails {a b : Ex} {x n : Nat} (ha : Is env a (.int x)) (hb : Is env b (.int n))
    (hx : 2 ^ 32 ≤ x * 2 ^ n) :
    ∃ r : Nat, Shows env (.call (.bit .lshift) [a, b]) (.int r) ∧ r = x * 2 ^ n ∧ 2 ^ 32 ≤ r :=
  ⟨x <<< n, shows_bit ha hb rfl, Nat.shiftLeft_eq x n, by rw [Nat.shiftLeft_eq]; exact hx⟩

example : Is envS (.int 2) (.int (2 : Nat)) ∧ Is envS (.int 31) (.int (31 : Nat)) ∧ 2 ^ 32 ≤ 2 * 2 ^ 31 ∧
    Shows envS (.call (.bit .lshift) [.int 2, .int 31]) (.int 4294967296) :=
  ⟨⟨rfl, trivial, rfl⟩, ⟨rfl, trivial, rfl⟩, by decide,
    shows_bit (x := 2) (y := 31) ⟨rfl, trivial, rfl⟩ ⟨rfl, trivial, rfl⟩ (by decide +kernel)⟩

/-- Bit 31 is not the sign: BITSET(x, 31) is never negative and no 32-bit integer. -/
theorem C49_sign_fails {a b : Ex} {x : Nat} (ha : Is env a (.int x)) (hb : Is env b (.int (31 : Nat))) :
    ∃ r : Nat, Shows env (.call (.bit .set) [a, b]) (.int r) ∧ 2 ^ 31 ≤ r := by
  obtain ⟨r, hr, hbit, -⟩ := C49_bitset ha hb
  exact ⟨r, hr, Nat.ge_two_pow_of_testBit hbit⟩

example : Shows envS (.call (.bit .set) [.int 0, .int 31]) (.int 2147483648) :=
  shows_bit (x := 0) (y := 31) ⟨rfl, trivial, rfl⟩ ⟨rfl, trivial, rfl⟩ (by decide +kernel)

end Props
