import Verif.Py.Basic
/-!
# Python sequences

Indexing, slicing and `list.index` on Lean lists (used for Python lists and for
strings, which are lists of characters here).
-/
namespace Py

/-- How a slice bound is normalised for a sequence of length `n` (step 1). -/
def clampIdx (n : Nat) (i : Int) : Nat :=
  if i < 0 then (i + n).toNat else min i.toNat n

/-- `s[a:b]`; `none` is an omitted bound. -/
def slice {α : Type} (s : List α) (a b : Option Int) : List α :=
  let lo := match a with
    | some i => clampIdx s.length i
    | none => 0
  let hi := match b with
    | some i => clampIdx s.length i
    | none => s.length
  (s.drop lo).take (hi - lo)

/-- `s[i]`; `none` is IndexError. -/
def index {α : Type} (s : List α) (i : Int) : Option α :=
  if i < 0 then
    if i + s.length < 0 then none else s[(i + s.length).toNat]?
  else s[i.toNat]?

/-- `s.index(v)`; `none` is ValueError. -/
def indexOf {α : Type} [DecidableEq α] (s : List α) (v : α) : Option Nat :=
  match s with
  | [] => none
  | x :: t => if x = v then some 0 else (indexOf t v).map (· + 1)

/-- `s * n` / `[x] * n` for an integer `n`. -/
def repeatN {α : Type} (s : List α) (n : Int) : List α :=
  (List.replicate n.toNat s).flatten

theorem slice_eq_drop_take {α : Type} (s : List α) (a b : Nat) (ha : a ≤ s.length) (hb : b ≤ s.length) :
    slice s (some (a : Int)) (some (b : Int)) = (s.drop a).take (b - a) := by
  simp only [slice, clampIdx]
  have h1 : ¬ ((a : Int) < 0) := by omega
  have h2 : ¬ ((b : Int) < 0) := by omega
  simp [h1, h2, Nat.min_eq_left ha, Nat.min_eq_left hb]

theorem clampIdx_nonneg (n : Nat) (i : Nat) : clampIdx n (i : Int) = min i n := by
  have : ¬ ((i : Int) < 0) := by omega
  simp [clampIdx, this]

theorem slice_nat {α : Type} (s : List α) (a b : Nat) :
    slice s (some (a : Int)) (some (b : Int)) = (s.drop a).take (b - a) := by
  simp only [slice, clampIdx_nonneg]
  by_cases ha : a ≤ s.length
  · by_cases hb : b ≤ s.length
    · simp [Nat.min_eq_left ha, Nat.min_eq_left hb]
    · rw [Nat.min_eq_left ha, Nat.min_eq_right (by omega)]
      rw [List.take_of_length_le (by simp), List.take_of_length_le (by simp; omega)]
  · have : min a s.length = s.length := Nat.min_eq_right (by omega)
    rw [this]
    simp [List.drop_of_length_le (by omega : s.length ≤ a)]

theorem slice_from {α : Type} (s : List α) (a : Nat) :
    slice s (some (a : Int)) none = s.drop a := by
  simp only [slice, clampIdx_nonneg]
  rw [List.take_of_length_le (by simp)]
  by_cases ha : a ≤ s.length
  · simp [Nat.min_eq_left ha]
  · have : min a s.length = s.length := Nat.min_eq_right (by omega)
    rw [this]
    simp [List.drop_of_length_le (by omega : s.length ≤ a)]

theorem slice_to {α : Type} (s : List α) (b : Nat) :
    slice s none (some (b : Int)) = s.take b := by
  simp only [slice, clampIdx_nonneg, List.drop_zero, Nat.sub_zero]
  by_cases hb : b ≤ s.length
  · simp [Nat.min_eq_left hb]
  · rw [Nat.min_eq_right (by omega), List.take_length, List.take_of_length_le (by omega)]

theorem index_nat {α : Type} (s : List α) (i : Nat) : index s (i : Int) = s[i]? := by
  have : ¬ ((i : Int) < 0) := by omega
  simp [index, this]

theorem indexOf_some {α : Type} [DecidableEq α] {s : List α} {v : α} {i : Nat} :
    indexOf s v = some i ↔ s[i]? = some v ∧ ∀ j, j < i → s[j]? ≠ some v := by
  induction s generalizing i with
  | nil => simp [indexOf]
  | cons x t ih =>
    simp only [indexOf]
    by_cases h : x = v
    · subst h
      simp only [if_true, Option.some.injEq]
      constructor
      · rintro rfl; simp
      · rintro ⟨_, h2⟩
        cases i with
        | zero => rfl
        | succ i => exact absurd rfl (h2 0 (by omega))
    · simp only [h, if_false, Option.map_eq_some_iff]
      constructor
      · rintro ⟨j, hj, rfl⟩
        obtain ⟨a, b⟩ := ih.mp hj
        refine ⟨by simpa using a, fun k hk => ?_⟩
        cases k with
        | zero => simpa using h
        | succ k => simpa using b k (by omega)
      · rintro ⟨a, b⟩
        cases i with
        | zero => simp at a; exact absurd a h
        | succ i =>
          refine ⟨i, ih.mpr ⟨by simpa using a, fun j hj => ?_⟩, rfl⟩
          simpa using b (j + 1) (by omega)

theorem indexOf_none {α : Type} [DecidableEq α] {s : List α} {v : α} :
    indexOf s v = none ↔ v ∉ s := by
  induction s with
  | nil => simp [indexOf]
  | cons x t ih =>
    simp only [indexOf]
    by_cases h : x = v
    · simp [h]
    · simp [h, ih, Ne.symm h]

end Py
