import Verif.Model.ForRange
import Verif.Props.Extremes
/-!
# C149: FOR with fractions and with negative steps
-/
namespace Props
open Model.ForRange
open Model.Extremes (toInt)

namespace ForRangeSpec

/-- The value is beyond the end of the loop. -/
def Beyond (b s v : Rat) : Prop := if 0 < s then b < v else v < b

/-- FOR v = a TO b STEP s runs its body for `a`, `a + s`, .., up to the last one that is not beyond `b`. -/
def Runs (a b s : Rat) (vs : List Rat) : Prop :=
  (∀ i (h : i < vs.length), vs[i] = a + i * s ∧ ¬ Beyond b s vs[i]) ∧ Beyond b s (a + vs.length * s)

/-- The generated loop runs its body for the values for which FoxPro does. -/
def Right (a b s : Rat) : Prop := ∃ vs, values a b (some s) = some vs ∧ Runs a b s (vs.map fun (n : Int) => (n : Rat))

end ForRangeSpec
open ForRangeSpec ExtremesSpec

namespace ForRangeAux

theorem rat_le_lt {a b c : Rat} (h1 : a ≤ b) (h2 : b < c) : a < c :=
  Rat.not_le.1 fun h => absurd (Rat.le_trans h h1) (Rat.not_le.2 h2)
theorem rat_lt_le {a b c : Rat} (h1 : a < b) (h2 : b ≤ c) : a < c :=
  Rat.not_le.1 fun h => absurd (Rat.le_trans h2 h) (Rat.not_le.2 h1)

theorem toInt_int (n : Int) : toInt (n : Rat) = n := by simp [toInt]

theorem range_up (a e k : Int) (hk : 0 < k) (i : Nat) : i < (BlocksSpec.pyRange a e k).length ↔ a + i * k < e := by
  rw [BlocksSpec.pyRange, if_pos hk, List.length_map, List.length_range]
  have h1 : (i : Int) + 1 ≤ (e - a + k - 1) / k ↔ ((i : Int) + 1) * k ≤ e - a + k - 1 := Int.le_ediv_iff_mul_le hk
  rw [Int.add_mul, Int.one_mul] at h1
  omega

theorem range_down (a e k : Int) (hk : k < 0) (i : Nat) : i < (BlocksSpec.pyRange a e k).length ↔ e < a + i * k := by
  rw [BlocksSpec.pyRange, if_neg (by omega), List.length_map, List.length_range]
  have h1 : (i : Int) + 1 ≤ (a - e + -k - 1) / -k ↔ ((i : Int) + 1) * -k ≤ a - e + -k - 1 := Int.le_ediv_iff_mul_le (by omega)
  rw [Int.add_mul, Int.one_mul, Int.mul_neg] at h1
  omega

theorem range_get (a e k : Int) (i : Nat) (h : i < (BlocksSpec.pyRange a e k).length) : (BlocksSpec.pyRange a e k)[i] = a + i * k := by
  simp only [BlocksSpec.pyRange] at h ⊢
  split <;> simp

theorem cast_value (a k : Int) (i : Nat) : ((a + i * k : Int) : Rat) = (a : Rat) + (i : Rat) * (k : Rat) := by
  rw [Rat.intCast_add, Rat.intCast_mul, Rat.intCast_natCast]

/-- The loop is right if as many values as FoxPro has are in the range. -/
theorem right_iff (a : Int) (b : Rat) (k : Int) (hk : k ≠ 0) :
    Right a b k ↔ (∀ i < (BlocksSpec.pyRange a (toInt b + 1) k).length, ¬ Beyond b k ((a + i * k : Int) : Rat)) ∧
      Beyond b k ((a + (BlocksSpec.pyRange a (toInt b + 1) k).length * k : Int) : Rat) := by
  have hv : values a b (some (k : Rat)) = some (BlocksSpec.pyRange a (toInt b + 1) k) := by
    rw [values, toInt_int, toInt_int, if_neg hk]
  unfold Right Runs
  constructor
  · rintro ⟨vs, hvs, h1, h2⟩
    rw [hv] at hvs
    injection hvs with hvs
    subst hvs
    rw [List.length_map] at h2
    refine ⟨fun i hi => ?_, by rw [cast_value]; exact h2⟩
    have h3 := (h1 i (by rw [List.length_map]; exact hi)).2
    rw [List.getElem_map, range_get] at h3
    exact h3
  · rintro ⟨h1, h2⟩
    refine ⟨_, hv, fun i hi => ?_, by rw [List.length_map, ← cast_value]; exact h2⟩
    rw [List.length_map] at hi
    rw [List.getElem_map, range_get _ _ _ _ hi]
    exact ⟨cast_value a k i, h1 i hi⟩

theorem beyond_up (b : Rat) {k : Int} (hk : 0 < k) (v : Rat) : Beyond b k v ↔ b < v := by
  have : (0 : Rat) < (k : Rat) := by
    have := Rat.intCast_lt_intCast (a := 0) (b := k)
    simpa using this.2 hk
  simp [Beyond, this]

theorem beyond_down (b : Rat) {k : Int} (hk : k < 0) (v : Rat) : Beyond b k v ↔ v < b := by
  have : ¬ (0 : Rat) < (k : Rat) := by
    have := Rat.intCast_lt_intCast (a := 0) (b := k)
    intro h
    have := this.1 (by simpa using h)
    omega
  simp [Beyond, this]

/-- A whole number up to `b` is one up to the whole part of `b`. -/
theorem le_toInt {b : Rat} {n : Int} (h : (n : Rat) ≤ b) : n ≤ toInt b := by
  obtain ⟨h1, h2⟩ := (C145_int b (toInt b)).1 rfl
  rcases Rat.le_total (a := 0) (b := b) with h0 | h0
  · have := rat_le_lt h (h1 h0).2
    have := Rat.intCast_lt_intCast.1 this
    omega
  · by_cases hb : b = 0
    · have := rat_le_lt h (h1 (hb ▸ Rat.le_refl)).2
      have := Rat.intCast_lt_intCast.1 this
      omega
    · have := Rat.le_trans h (h2 (Rat.lt_of_le_of_ne h0 hb)).1
      exact Rat.intCast_le_intCast.1 this

end ForRangeAux
open ForRangeAux

/-- C149: from a whole number in whole steps upwards, the loop is the one of FoxPro exactly if none of the values lies
between the bound and the bound with its fraction cut off. -/
theorem C149_up_iff (a : Int) (b : Rat) (k : Int) (hk : 0 < k) :
    Right a b k ↔ ¬ ∃ i : Nat, b < ((a + i * k : Int) : Rat) ∧ a + i * k ≤ toInt b := by
  rw [right_iff a b k (by omega)]
  simp only [beyond_up b hk, range_up _ _ _ hk, Rat.not_lt]
  have hlen := range_up a (toInt b + 1) k hk (BlocksSpec.pyRange a (toInt b + 1) k).length
  constructor
  · rintro ⟨h1, _⟩ ⟨i, h3, h4⟩
    exact absurd (h1 i (by omega)) (Rat.not_le.2 h3)
  · intro h
    refine ⟨fun i hi => Rat.not_lt.1 fun hb => h ⟨i, hb, by omega⟩, ?_⟩
    refine Rat.not_le.1 fun hb => ?_
    have := le_toInt hb
    omega

-- 1 TO 3.5 is right; -5 TO -2.5 has -2 among the values
example : Right (1 : Int) (mkRat 7 2) (1 : Int) := by
  rw [C149_up_iff 1 _ 1 (by decide)]
  rintro ⟨i, h1, h2⟩
  rw [show toInt (mkRat 7 2) = 3 by decide +kernel] at h2
  have h3 : ((1 + i * 1 : Int) : Rat) ≤ ((3 : Int) : Rat) := Rat.intCast_le_intCast.2 h2
  exact absurd (rat_lt_le h1 h3) (by decide +kernel)
example : ¬ Right (-5 : Int) (mkRat (-5) 2) (1 : Int) := by
  rw [C149_up_iff (-5) _ 1 (by decide), Classical.not_not]
  exact ⟨3, by decide +kernel, by decide +kernel⟩

/-- C149 (partial): with a whole start, a whole positive step, and a bound that is not negative or is whole, the loop is the
one of FoxPro.  Missing: the other bounds (`C149_up_iff`, `C149_negative_fails`), steps that are negative
(`C149_down_iff`), starts and steps with a fraction (`C149_start_fails`, `C149_step_fails`). -/
theorem C149_for_partial (a : Int) (b : Rat) (k : Int) (hk : 0 < k) (hb : 0 ≤ b ∨ ∃ n : Int, b = n) : Right a b k := by
  rw [C149_up_iff a b k hk]
  rintro ⟨i, h1, h2⟩
  have h3 : ((toInt b : Int) : Rat) ≤ b := by
    rcases hb with hb | ⟨n, rfl⟩
    · exact (((C145_int b (toInt b)).1 rfl).1 hb).1
    · rw [toInt_int]; exact Rat.le_refl
  exact absurd (rat_lt_le h1 (Rat.intCast_le_intCast.2 h2)) (Rat.not_lt.2 h3)

example : Right (2 : Int) (mkRat 99 10) (3 : Int) := C149_for_partial 2 _ 3 (by decide) (.inl (by decide +kernel))
example : values ((2 : Int) : Rat) (mkRat 99 10) (some ((3 : Int) : Rat)) = some [2, 5, 8] := by decide +kernel

/-- C149 (partial): without STEP the loop counts in steps of 1, from a whole start up to a bound that is not negative or
is whole.  Missing: as for `C149_for_partial`. -/
theorem C149_plain_partial (a : Int) (b : Rat) (hb : 0 ≤ b ∨ ∃ n : Int, b = n) :
    ∃ vs, values a b none = some vs ∧ Runs a b 1 (vs.map fun (n : Int) => (n : Rat)) := by
  obtain ⟨vs, h1, h2⟩ := C149_for_partial a b 1 (by decide) hb
  refine ⟨vs, ?_, h2⟩
  rw [← h1]
  have h : toInt (1 : Rat) = 1 := toInt_int 1
  simp [values, toInt_int, h]

example : ∃ vs, values ((1 : Int) : Rat) (mkRat 7 2) none = some vs ∧ Runs (1 : Int) (mkRat 7 2) 1 (vs.map fun (n : Int) => (n : Rat)) :=
  C149_plain_partial 1 _ (.inl (by decide +kernel))
example : values ((1 : Int) : Rat) (mkRat 7 2) none = some [1, 2, 3] := by decide +kernel

/-- C149 fails: up to a negative bound with a fraction in steps of 1 there is one iteration too many. -/
theorem C149_negative_fails (a : Int) (b : Rat) (hb : b < 0) (hn : ¬ ∃ n : Int, b = n) (ha : (a : Rat) ≤ b) :
    ¬ Right a b (1 : Int) := by
  rw [C149_up_iff a b 1 (by decide), Classical.not_not]
  have h1 := (((C145_int b (toInt b)).1 rfl).2 hb).1
  have h2 := le_toInt ha
  refine ⟨(toInt b - a).toNat, ?_, by omega⟩
  rw [show a + ((toInt b - a).toNat : Int) * 1 = toInt b by omega]
  exact Rat.lt_of_le_of_ne h1 fun he => hn ⟨_, he⟩

example : ¬ Right (-5 : Int) (mkRat (-5) 2) (1 : Int) :=
  C149_negative_fails (-5) _ (by decide +kernel) (by
    rintro ⟨n, hn⟩
    have := congrArg Rat.den hn
    rw [Rat.den_intCast] at this
    exact absurd this (by decide +kernel)) (by decide +kernel)

/-- C149: downwards in whole steps the loop is the one of FoxPro exactly if no value is at least the bound and at most
one more than its whole part: those values are left out. -/
theorem C149_down_iff (a : Int) (b : Rat) (k : Int) (hk : k < 0) :
    Right a b k ↔ (¬ ∃ i : Nat, b ≤ ((a + i * k : Int) : Rat) ∧ a + i * k ≤ toInt b + 1) := by
  rw [right_iff a b k (by omega)]
  simp only [beyond_down b hk, Rat.not_lt]
  have hmem := range_down a (toInt b + 1) k hk
  generalize (BlocksSpec.pyRange a (toInt b + 1) k).length = n at hmem ⊢
  have hlen := hmem n
  constructor
  · rintro ⟨_, h2⟩ ⟨i, h3, h4⟩
    by_cases hi : n ≤ i
    · have hle : a + i * k ≤ a + n * k := by
        have := Int.mul_le_mul_of_nonpos_right (Int.ofNat_le.2 hi) (Int.le_of_lt hk)
        omega
      exact absurd (rat_le_lt (Rat.le_trans h3 (Rat.intCast_le_intCast.2 hle)) h2) Rat.lt_irrefl
    · have := (hmem i).1 (by omega)
      omega
  · intro h
    refine ⟨fun i hi => Rat.not_lt.1 fun hb => ?_, Rat.not_le.1 fun hb => h ⟨n, hb, by omega⟩⟩
    have := le_toInt (Rat.le_of_lt hb)
    have := (hmem i).1 hi
    omega

-- 10 TO 1 STEP -4 leaves out 2, 10 TO 0 STEP -4 is right
example : ¬ Right (10 : Int) (1 : Int) (-4 : Int) := by
  rw [C149_down_iff 10 _ (-4) (by decide), Classical.not_not]
  exact ⟨2, by decide +kernel, by decide +kernel⟩
example : Right (10 : Int) (0 : Int) (-4 : Int) := by
  rw [C149_down_iff 10 _ (-4) (by decide)]
  rintro ⟨i, h1, h2⟩
  rw [toInt_int] at h2
  have h3 := Rat.intCast_le_intCast.1 h1
  omega

/-- C149 fails: with STEP -1 and STEP -2 the last iterations are always missing. -/
theorem C149_down_fails (a b : Int) (h : b ≤ a) : ¬ Right a b (-1 : Int) ∧ ¬ Right a b (-2 : Int) := by
  rw [C149_down_iff a _ (-1) (by decide), C149_down_iff a _ (-2) (by decide), Classical.not_not, Classical.not_not, toInt_int]
  refine ⟨⟨(a - b).toNat, Rat.intCast_le_intCast.2 (by omega), by omega⟩, ⟨((a - b) / 2).toNat, Rat.intCast_le_intCast.2 (by omega), by omega⟩⟩

example : values ((3 : Int) : Rat) ((1 : Int) : Rat) (some ((-1 : Int) : Rat)) = some [3] := by decide +kernel
example : ¬ Right (3 : Int) (1 : Int) (-1 : Int) := (C149_down_fails 3 1 (by decide)).1

/-- C149 fails: a loop whose start has a fraction and that has an iteration begins at another number. -/
theorem C149_start_fails (a b s : Rat) (hs : 0 < s) (ha : ¬ ∃ n : Int, a = n) (hab : a ≤ b) : ¬ Right a b s := by
  rintro ⟨vs, _, h1, h2⟩
  cases vs with
  | nil =>
    simp only [List.map_nil, List.length_nil, Beyond, if_pos hs] at h2
    rw [show ((0 : Nat) : Rat) = 0 from rfl, Rat.zero_mul, Rat.add_zero] at h2
    exact absurd hab (Rat.not_le.2 h2)
  | cons n vs =>
    have h := (h1 0 (by simp)).1
    simp only [List.map_cons, List.getElem_cons_zero] at h
    rw [show ((0 : Nat) : Rat) = 0 from rfl, Rat.zero_mul, Rat.add_zero] at h
    exact ha ⟨n, h.symm⟩

example : ¬ Right (mkRat 1 2) 3 1 :=
  C149_start_fails _ 3 1 (by decide +kernel) (by
    rintro ⟨n, hn⟩
    have := congrArg Rat.den hn
    rw [Rat.den_intCast] at this
    exact absurd this (by decide +kernel)) (by decide +kernel)

/-- C149 fails: a step below 1 is an error. -/
theorem C149_step_fails (a b s : Rat) (h1 : ((-1 : Int) : Rat) < s) (h2 : s < ((1 : Int) : Rat)) : values a b (some s) = none := by
  have : toInt s = 0 := by
    rw [C145_int]
    refine ⟨fun h => ⟨h, h2⟩, fun h => ⟨Rat.le_of_lt h, h1⟩⟩
  rw [values, if_pos this]

example : values 0 1 (some (mkRat 1 10)) = none := C149_step_fails 0 1 _ (by decide +kernel) (by decide +kernel)

/-- C149 fails: of a step with a fraction the fraction is cut off; if there are at least two iterations, the second one
has another number. -/
theorem C149_fraction_fails (a b s : Rat) (hs : 0 < s) (hn : ¬ ∃ n : Int, s = n) (hab : a + s ≤ b) : ¬ Right a b s := by
  rintro ⟨vs, _, h1, h2⟩
  have hle : a ≤ b := Rat.le_trans (by
    have := Rat.add_le_add_left (c := a) |>.2 (Rat.le_of_lt hs)
    rwa [Rat.add_zero] at this) hab
  match vs with
  | [] =>
    simp only [List.map_nil, List.length_nil, Beyond, if_pos hs] at h2
    rw [show ((0 : Nat) : Rat) = 0 from rfl, Rat.zero_mul, Rat.add_zero] at h2
    exact absurd hle (Rat.not_le.2 h2)
  | [n] =>
    simp only [List.map_cons, List.map_nil, List.length_cons, List.length_nil, Beyond, if_pos hs] at h2
    rw [show ((0 + 1 : Nat) : Rat) = 1 from rfl, Rat.one_mul] at h2
    exact absurd hab (Rat.not_le.2 h2)
  | n :: m :: vs =>
    have e0 := (h1 0 (by simp)).1
    have e1 := (h1 1 (by simp)).1
    simp only [List.map_cons, List.getElem_cons_zero, List.getElem_cons_succ] at e0 e1
    rw [show ((0 : Nat) : Rat) = 0 from rfl, Rat.zero_mul, Rat.add_zero] at e0
    rw [show ((1 : Nat) : Rat) = 1 from rfl, Rat.one_mul] at e1
    refine hn ⟨m - n, ?_⟩
    rw [Rat.intCast_sub, e0, e1, Rat.sub_eq_add_neg, Rat.add_comm a s, Rat.add_assoc, Rat.add_neg_cancel, Rat.add_zero]

example : ¬ Right 0 3 (mkRat 3 2) :=
  C149_fraction_fails 0 3 _ (by decide +kernel) (by
    rintro ⟨n, hn⟩
    have := congrArg Rat.den hn
    rw [Rat.den_intCast] at this
    exact absurd this (by decide +kernel)) (by decide +kernel)

end Props
