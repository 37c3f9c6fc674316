import Verif.Model.Array
/-!
# Arrays: properties C09-C11 and C58
-/
namespace Props
open Model Py

variable {α : Type}

theorem repeatN_singleton (x : α) (n : Nat) : repeatN [x] (n : Int) = List.replicate n x := by
  simp only [repeatN, Int.toNat_natCast]
  induction n with
  | zero => rfl
  | succ n ih => rw [List.replicate_succ, List.flatten_cons, ih]; rfl

theorem repeatN_length (s : List α) (n : Nat) : (repeatN s (n : Int)).length = n * s.length := by
  simp [repeatN]

/-- An `r` by `c` array as it can be reached from its creation by stores. -/
structure Is2D (a : Arr α) (r c : Nat) : Prop where
  rows : a.dim1 = r
  size : a.data.length = r * c
  off : a.offset = 0
  cols : a.columns = true

theorem Is2D_init (d : α) (r c : Nat) (hc : 1 ≤ c) : Is2D (Arr.init d r c) r c := by
  have h : ¬ ((c : Int) = 0) := by omega
  refine ⟨rfl, ?_, rfl, by simp [Arr.init]; omega⟩
  simp only [Arr.init, h, if_false, repeatN_length, repeatN_singleton, List.length_replicate]
  exact Nat.mul_comm _ _

/-- The linear position of `[i, j]`, 0-based. -/
theorem getIndex_eq {a : Arr α} {r c : Nat} (h : Is2D a r c) (hr : 1 ≤ r) (i j : Int) :
    a.getIndex i j = if (c : Int) * (i - 1) + (j - 1) < 0 then .error .indexError
      else .ok ((c : Int) * (i - 1) + (j - 1)) := by
  have h1 : ¬ (a.dim1 = 0) := by rw [h.rows]; omega
  have h2 : Int.fdiv (a.len : Int) a.dim1 = c := by
    rw [h.rows, Arr.len, h.size]
    rw [Int.fdiv_eq_ediv_of_nonneg _ (by omega)]
    push_cast
    rw [Int.mul_ediv_cancel_left _ (by omega)]
  simp only [Arr.getIndex, h1, if_false, h2, h.off, Int.sub_zero]

theorem index_toNat {s : List α} {k : Int} (hk : 0 ≤ k) : index s k = s[k.toNat]? := by
  have : ¬ k < 0 := by omega
  simp [index, this]

/-- The arithmetic behind row-major addressing: a pair in range has a position in range. -/
theorem pos_bounds {r c : Nat} {i j : Int} (hi : 1 ≤ i ∧ i ≤ r) (hj : 1 ≤ j ∧ j ≤ c) :
    0 ≤ (c : Int) * (i - 1) + (j - 1) ∧ (c : Int) * (i - 1) + (j - 1) < (r : Int) * c := by
  have h1 : 0 ≤ (c : Int) * (i - 1) := Int.mul_nonneg (by omega) (by omega)
  have h2 : (c : Int) * (i - 1) ≤ c * (r - 1) := Int.mul_le_mul_of_nonneg_left (by omega) (by omega)
  have h3 : (c : Int) * (r - 1) = r * c - c := by rw [Int.mul_sub, Int.mul_comm]; omega
  omega

theorem pos_inj {c : Nat} {i j i' j' : Int} (hj : 1 ≤ j ∧ j ≤ c) (hj' : 1 ≤ j' ∧ j' ≤ c)
    (h : (c : Int) * (i - 1) + (j - 1) = (c : Int) * (i' - 1) + (j' - 1)) : i = i' ∧ j = j' := by
  have key : i = i' := by
    rcases Int.lt_trichotomy i i' with hl | he | hl
    · have : (c : Int) * 1 ≤ c * (i' - i) := Int.mul_le_mul_of_nonneg_left (by omega) (by omega)
      have e : (c : Int) * (i' - i) = c * (i' - 1) - c * (i - 1) := by
        rw [← Int.mul_sub]; congr 1; omega
      omega
    · exact he
    · have : (c : Int) * 1 ≤ c * (i - i') := Int.mul_le_mul_of_nonneg_left (by omega) (by omega)
      have e : (c : Int) * (i - i') = c * (i - 1) - c * (i' - 1) := by
        rw [← Int.mul_sub]; congr 1; omega
      omega
  subst key
  exact ⟨rfl, by omega⟩

/-! ## C09 -/

/-- C09: storing in range is allowed, reads back, is the element number
`(i-1)*c + j` of the array in storage order, changes no other element and keeps
the shape. -/
theorem C09_store (a : Arr α) (r c : Nat) (h : Is2D a r c) (i j : Int)
    (hi : 1 ≤ i ∧ i ≤ r) (hj : 1 ≤ j ∧ j ≤ c) (v : α) :
    ∃ a', a.set i j v = .ok a' ∧ Is2D a' r c ∧ a'.get i j = .ok v ∧
      a'.data[((i - 1) * c + j - 1).toNat]? = some v ∧
      ∀ i' j' : Int, (1 ≤ i' ∧ i' ≤ r) → (1 ≤ j' ∧ j' ≤ c) → (i', j') ≠ (i, j) →
        a'.get i' j' = a.get i' j' := by
  have hr : 1 ≤ r := by omega
  obtain ⟨b1, b2⟩ := pos_bounds hi hj
  have hnn : ¬ ((c : Int) * (i - 1) + (j - 1) < 0) := by omega
  have hlt : (c : Int) * (i - 1) + (j - 1) < a.len := by rw [Arr.len, h.size]; push_cast; exact b2
  have hset : a.set i j v = .ok { a with data := a.data.set ((c : Int) * (i - 1) + (j - 1)).toNat v } := by
    simp only [Arr.set, getIndex_eq h hr, hnn, if_false, hlt, if_true]
  have h' : Is2D { a with data := a.data.set ((c : Int) * (i - 1) + (j - 1)).toNat v } r c :=
    ⟨h.rows, by simp [h.size], h.off, h.cols⟩
  have hk : ((c : Int) * (i - 1) + (j - 1)).toNat < a.data.length := by
    have := hlt; simp only [Arr.len] at this; omega
  refine ⟨_, hset, h', ?_, ?_, ?_⟩
  · simp only [Arr.get, getIndex_eq h' hr, hnn, if_false, index_toNat b1]
    rw [List.getElem?_set_self hk]
  · have e : (i - 1) * c + j - 1 = (c : Int) * (i - 1) + (j - 1) := by rw [Int.mul_comm]; omega
    rw [e]
    exact List.getElem?_set_self hk
  · intro i' j' hi' hj' hne
    obtain ⟨b1', b2'⟩ := pos_bounds hi' hj'
    have hnn' : ¬ ((c : Int) * (i' - 1) + (j' - 1) < 0) := by omega
    simp only [Arr.get, getIndex_eq h' hr, getIndex_eq h hr, hnn', if_false, index_toNat b1']
    rw [List.getElem?_set_ne]
    intro c1
    have : (c : Int) * (i' - 1) + (j' - 1) = (c : Int) * (i - 1) + (j - 1) := by omega
    obtain ⟨e1, e2⟩ := pos_inj hj' hj this
    exact hne (by rw [e1, e2])

example : ∃ a', (Arr.init (0 : Int) 3 2).set 2 1 7 = .ok a' ∧ a'.get 2 1 = .ok 7 ∧ a'.get 2 2 = .ok 0 := by
  obtain ⟨a', h1, _, h2, _, h3⟩ := C09_store (Arr.init (0 : Int) 3 2) 3 2 (Is2D_init 0 3 2 (by omega)) 2 1 (by omega) (by omega) 7
  exact ⟨a', h1, h2, by rw [h3 2 2 (by omega) (by omega) (by decide)]; decide⟩

/-- C09: reading in range always succeeds. -/
theorem C09_read_in_range (a : Arr α) (r c : Nat) (h : Is2D a r c) (i j : Int)
    (hi : 1 ≤ i ∧ i ≤ r) (hj : 1 ≤ j ∧ j ≤ c) :
    ∃ v, a.get i j = .ok v ∧ a.data[((i - 1) * c + j - 1).toNat]? = some v := by
  obtain ⟨b1, b2⟩ := pos_bounds hi hj
  have hnn : ¬ ((c : Int) * (i - 1) + (j - 1) < 0) := by omega
  have hk : ((c : Int) * (i - 1) + (j - 1)).toNat < a.data.length := by
    rw [h.size]
    have : ((r * c : Nat) : Int) = (r : Int) * c := by push_cast; rfl
    omega
  have e : (i - 1) * c + j - 1 = (c : Int) * (i - 1) + (j - 1) := by rw [Int.mul_comm]; omega
  refine ⟨a.data[((c : Int) * (i - 1) + (j - 1)).toNat], ?_, ?_⟩
  · simp only [Arr.get, getIndex_eq h (by omega), hnn, if_false, index_toNat b1]
    rw [List.getElem?_eq_getElem hk]
  · rw [e, List.getElem?_eq_getElem hk]

example : (⟨true, 0, 3, [1, 2, 3, 4, 5, 6]⟩ : Arr Int).get 3 1 = .ok 5 := by decide

/-- The last value stored at `[i, j]` by a history of stores. -/
def lastWrite (d : α) : List (ArrWrite α) → Int → Int → α
  | [], _, _ => d
  | w :: ws, i, j =>
    lastWrite (if w.i = i ∧ w.j = j then w.v else d) ws i j

/-- C09 for histories: after any sequence of in-range stores into a new array,
every element holds the last value stored there, or .F. -/
theorem C09_history (d : α) (r c : Nat) (hc : 1 ≤ c) (ws : List (ArrWrite α))
    (hw : ∀ w ∈ ws, (1 ≤ w.i ∧ w.i ≤ r) ∧ (1 ≤ w.j ∧ w.j ≤ c)) :
    ∃ a, (Arr.init d r c).writes ws = .ok a ∧ Is2D a r c ∧
      ∀ i j : Int, (1 ≤ i ∧ i ≤ r) → (1 ≤ j ∧ j ≤ c) → a.get i j = .ok (lastWrite d ws i j) := by
  have gen : ∀ (ws : List (ArrWrite α)) (a0 : Arr α) (f : Int → Int → α), Is2D a0 r c →
      (∀ i j : Int, (1 ≤ i ∧ i ≤ r) → (1 ≤ j ∧ j ≤ c) → a0.get i j = .ok (f i j)) →
      (∀ w ∈ ws, (1 ≤ w.i ∧ w.i ≤ r) ∧ (1 ≤ w.j ∧ w.j ≤ c)) →
      ∃ a, a0.writes ws = .ok a ∧ Is2D a r c ∧
        ∀ i j : Int, (1 ≤ i ∧ i ≤ r) → (1 ≤ j ∧ j ≤ c) → a.get i j = .ok (lastWrite (f i j) ws i j) := by
    intro ws
    induction ws with
    | nil => intro a0 f h0 hg _; exact ⟨a0, rfl, h0, hg⟩
    | cons w ws ih =>
      intro a0 f h0 hg hw
      obtain ⟨hwi, hwj⟩ := hw w (by simp)
      obtain ⟨a1, e1, s1, g1, _, o1⟩ := C09_store a0 r c h0 w.i w.j hwi hwj w.v
      obtain ⟨a2, e2, s2, g2⟩ := ih a1 (fun i j => if w.i = i ∧ w.j = j then w.v else f i j) s1
        (by
          intro i j hi hj
          by_cases hh : w.i = i ∧ w.j = j
          · obtain ⟨rfl, rfl⟩ := hh
            simp only [and_self, if_true]; exact g1
          · simp only [hh, if_false]
            rw [o1 i j hi hj (by intro c; cases c; exact hh ⟨rfl, rfl⟩)]
            exact hg i j hi hj)
        (fun x hx => hw x (by simp [hx]))
      refine ⟨a2, by simp only [Arr.writes, e1, e2], s2, ?_⟩
      intro i j hi hj
      exact g2 i j hi hj
  refine gen ws (Arr.init d r c) (fun _ _ => d) (Is2D_init d r c hc) ?_ hw
  intro i j hi hj
  obtain ⟨v, hv, hv2⟩ := C09_read_in_range _ r c (Is2D_init d r c hc) i j hi hj
  rw [hv]
  have hmem : v ∈ (Arr.init d r c).data := List.mem_of_getElem? hv2
  have hcz : ¬ ((c : Int) = 0) := by omega
  simp only [Arr.init, hcz, if_false, repeatN, Int.toNat_natCast, List.mem_flatten,
    List.mem_replicate] at hmem
  obtain ⟨l, ⟨_, rfl⟩, h2⟩ := hmem
  have h3 : v = d := by
    obtain ⟨l, hl, hvl⟩ := List.mem_flatten.mp h2
    rw [(List.mem_replicate.mp hl).2] at hvl
    simpa using hvl
  rw [h3]

example : lastWrite (0 : Int) [⟨2, 1, 5⟩, ⟨3, 2, 6⟩, ⟨2, 1, 7⟩] 2 1 = 7 ∧
    ∀ w ∈ ([⟨2, 1, 5⟩, ⟨3, 2, 6⟩, ⟨2, 1, 7⟩] : List (ArrWrite Int)), (1 ≤ w.i ∧ w.i ≤ (3 : Nat)) ∧ (1 ≤ w.j ∧ w.j ≤ (2 : Nat)) := by
  decide

/-- C09: ALEN. -/
theorem C09_alen (a : Arr α) (r c : Nat) (h : Is2D a r c) (hr : 1 ≤ r) :
    a.alen 0 = .ok ((r : Int) * c) ∧ a.alen 1 = .ok r ∧ a.alen 2 = .ok c := by
  have h1 : ¬ (a.dim1 = 0) := by rw [h.rows]; omega
  have h2 : Int.fdiv (a.len : Int) a.dim1 = c := by
    rw [h.rows, Arr.len, h.size]
    rw [Int.fdiv_eq_ediv_of_nonneg _ (by omega)]
    push_cast
    rw [Int.mul_ediv_cancel_left _ (by omega)]
  refine ⟨?_, ?_, ?_⟩
  · simp only [Arr.alen, h1]; simp [Arr.len, h.size]
  · simp only [Arr.alen, h1]; simp [h.rows]
  · simp only [Arr.alen, h1, h2, h.cols]; simp

example : (Arr.init false 3 2).alen 0 = .ok 6 ∧ (Arr.init false 3 2).alen 1 = .ok 3 ∧ (Arr.init false 3 2).alen 2 = .ok 2 :=
  C09_alen _ 3 2 (Is2D_init false 3 2 (by omega)) (by omega)

/-- A one-dimensional array of `n` elements. -/
structure Is1D (a : Arr α) (n : Nat) : Prop where
  rows : a.dim1 = n
  size : a.data.length = n
  off : a.offset = 0
  cols : a.columns = false

theorem Is1D_init (d : α) (n : Nat) : Is1D (Arr.init d n) n := by
  refine ⟨rfl, ?_, rfl, rfl⟩
  simp only [Arr.init, if_true]
  rw [show (1 : Int) = ((1 : Nat) : Int) from rfl, repeatN_length, repeatN_singleton]; simp

/-- C09: a one-dimensional array reports no columns. -/
theorem C09_alen_1d (a : Arr α) (n : Nat) (h : Is1D a n) (hn : 1 ≤ n) :
    a.alen 0 = .ok (n : Int) ∧ a.alen 1 = .ok (n : Int) ∧ a.alen 2 = .ok 0 := by
  have h1 : ¬ (a.dim1 = 0) := by rw [h.rows]; omega
  refine ⟨?_, ?_, ?_⟩
  · simp only [Arr.alen, h1]; simp [Arr.len, h.size]
  · simp only [Arr.alen, h1]; simp [h.rows]
  · simp [Arr.alen, h.cols]

example : Is2D (Arr.init false 3 2) 3 2 ∧
    ((Arr.init false 3 2).writes [⟨2, 1, true⟩, ⟨3, 2, true⟩]).toOption.map (·.data)
      = some [false, false, true, false, false, true] := ⟨Is2D_init false 3 2 (by omega), by decide⟩

/-! ## C10 -/

/-- C10 fails in every array with several rows: a column behind the last one is not rejected but is a
column of the next row, and a column before the first one is a column of the row before. -/
theorem C10_column_overflow_fails (a : Arr α) (r c : Nat) (h : Is2D a r c) (i j : Int) (hi : 1 ≤ i ∧ i < r)
    (hj : 1 ≤ j ∧ j ≤ c) (v : α) :
    (∃ a', a.set i (c + j) v = .ok a' ∧ a'.get (i + 1) j = .ok v) ∧
    ∃ a', a.set (i + 1) (j - c) v = .ok a' ∧ a'.get i j = .ok v := by
  have hr : 1 ≤ r := by omega
  have e1 : (c : Int) * (i - 1) + (c + j - 1) = c * (i + 1 - 1) + (j - 1) := by
    have : (c : Int) * (i + 1 - 1) = c * (i - 1) + c := by
      rw [show i + 1 - 1 = (i - 1) + 1 by omega, Int.mul_add, Int.mul_one]
    omega
  have e2 : (c : Int) * (i + 1 - 1) + (j - c - 1) = c * (i - 1) + (j - 1) := by omega
  have s1 : a.set i (c + j) v = a.set (i + 1) j v := by simp only [Arr.set, getIndex_eq h hr, e1]
  have s2 : a.set (i + 1) (j - c) v = a.set i j v := by simp only [Arr.set, getIndex_eq h hr, e2]
  rw [s1, s2]
  obtain ⟨a1, b1, _, c1, _⟩ := C09_store a r c h (i + 1) j (by omega) hj v
  obtain ⟨a2, b2, _, c2, _⟩ := C09_store a r c h i j (by omega) hj v
  exact ⟨⟨a1, b1, c1⟩, a2, b2, c2⟩

example : Is2D (Arr.init (0 : Int) 2 3) 2 3 ∧
    (Arr.init (0 : Int) 2 3).set 1 4 7 = .ok ⟨true, 0, 2, [0, 0, 0, 7, 0, 0]⟩ ∧
    (Arr.init (0 : Int) 2 3).set 2 0 7 = .ok ⟨true, 0, 2, [0, 0, 7, 0, 0, 0]⟩ :=
  ⟨Is2D_init 0 2 3 (by omega), by decide, by decide⟩

/-- C10, what does hold: an access fails, leaving the array unchanged, exactly
when the position `(i-1)*c + (j-1)` lies outside the array; in particular when
the row is out of range and the column is in range, or when the column is out of
range in the first (`j < 1`) or last (`j > c`) row.  Missing: a column overflow
into a neighbouring row is not rejected. -/
theorem C10_out_of_range_partial (a : Arr α) (r c : Nat) (h : Is2D a r c) (hr : 1 ≤ r) (i j : Int)
    (v : α) :
    ((a.get i j = .error .indexError ∧ a.set i j v = .error .indexError) ↔
      ((i - 1) * c + (j - 1) < 0 ∨ (r : Int) * c ≤ (i - 1) * c + (j - 1))) ∧
    ((i < 1 ∨ r < i) → (1 ≤ j ∧ j ≤ c) →
      a.get i j = .error .indexError ∧ a.set i j v = .error .indexError) := by
  have main : ((a.get i j = .error .indexError ∧ a.set i j v = .error .indexError) ↔
      ((i - 1) * c + (j - 1) < 0 ∨ (r : Int) * c ≤ (i - 1) * c + (j - 1))) := by
    have e : (i - 1) * c + (j - 1) = (c : Int) * (i - 1) + (j - 1) := by rw [Int.mul_comm]
    rw [e]
    simp only [Arr.get, Arr.set, getIndex_eq h hr]
    have hs : (a.len : Int) = (r : Int) * c := by rw [Arr.len, h.size]; push_cast; rfl
    have hs' : (a.data.length : Int) = (r : Int) * c := hs
    by_cases hneg : (c : Int) * (i - 1) + (j - 1) < 0
    · simp [hneg]
    · simp only [hneg, if_false, false_or]
      rw [index_toNat (by omega), hs]
      by_cases hge : (r : Int) * c ≤ (c : Int) * (i - 1) + (j - 1)
      · have h1 : a.data[((c : Int) * (i - 1) + (j - 1)).toNat]? = none :=
          List.getElem?_eq_none (by omega)
        have h2 : ¬ ((c : Int) * (i - 1) + (j - 1) < (r : Int) * c) := by omega
        simp [h1, h2, hge]
      · have h2 : ((c : Int) * (i - 1) + (j - 1) < (r : Int) * c) := by omega
        simp [h2, hge]
  refine ⟨main, fun hi hj => main.mpr ?_⟩
  rcases hi with hi | hi
  · left
    have : (i - 1) * (c : Int) ≤ (-1) * c := Int.mul_le_mul_of_nonneg_right (by omega) (by omega)
    omega
  · right
    have : (r : Int) * c ≤ (i - 1) * c := Int.mul_le_mul_of_nonneg_right (by omega) (by omega)
    omega

example : (Arr.init false 3 2).get 4 1 = .error .indexError ∧ (Arr.init false 3 2).set 0 2 true = .error .indexError :=
  ⟨((C10_out_of_range_partial _ 3 2 (Is2D_init false 3 2 (by omega)) (by omega) 4 1 true).2 (by omega) (by omega)).1,
   ((C10_out_of_range_partial _ 3 2 (Is2D_init false 3 2 (by omega)) (by omega) 0 2 true).2 (by omega) (by omega)).2⟩

/-- C10: a program whose stores are in range up to one with a row out of range stops there with an error, whatever follows. -/
theorem C10_stops (d : α) (r c : Nat) (hr : 1 ≤ r) (hc : 1 ≤ c) (ws rest : List (ArrWrite α)) (bad : ArrWrite α)
    (hw : ∀ w ∈ ws, (1 ≤ w.i ∧ w.i ≤ r) ∧ (1 ≤ w.j ∧ w.j ≤ c)) (hi : bad.i < 1 ∨ r < bad.i) (hj : 1 ≤ bad.j ∧ bad.j ≤ c) :
    (Arr.init d r c).writes (ws ++ bad :: rest) = .error .indexError := by
  have gen : ∀ (ws : List (ArrWrite α)) (a : Arr α), Is2D a r c →
      (∀ w ∈ ws, (1 ≤ w.i ∧ w.i ≤ r) ∧ (1 ≤ w.j ∧ w.j ≤ c)) → a.writes (ws ++ bad :: rest) = .error .indexError := by
    intro ws
    induction ws with
    | nil =>
      intro a ha _
      rw [List.nil_append, Arr.writes, ((C10_out_of_range_partial a r c ha hr bad.i bad.j bad.v).2 hi hj).2]
    | cons w ws ih =>
      intro a ha hw
      obtain ⟨hwi, hwj⟩ := hw w (by simp)
      obtain ⟨a1, e1, s1, _⟩ := C09_store a r c ha w.i w.j hwi hwj w.v
      rw [List.cons_append, Arr.writes, e1]
      exact ih a1 s1 fun x hx => hw x (by simp [hx])
  exact gen ws _ (Is2D_init d r c hc) hw

example : (Arr.init false 3 2).writes [⟨3, 2, true⟩, ⟨4, 1, true⟩, ⟨1, 1, true⟩] = .error .indexError :=
  C10_stops false 3 2 (by omega) (by omega) [⟨3, 2, true⟩] [⟨1, 1, true⟩] ⟨4, 1, true⟩ (by simp) (by simp) (by simp)

/-- C10 for one-dimensional arrays holds in full (also for an array with no elements,
where the error is a division by zero). -/
theorem C10_one_dimensional (a : Arr α) (n : Nat) (h : Is1D a n) (i : Int) (v : α) :
    (i < 1 ∨ n < i) ↔ ((∃ e, a.get1 i = .error e) ∧ (∃ e, a.set1 i v = .error e)) := by
  by_cases hn : n = 0
  · have h1 : a.dim1 = 0 := by rw [h.rows, hn]; rfl
    simp only [Arr.get1, Arr.set1, Arr.get, Arr.set, Arr.getIndex, h1, if_true]
    constructor
    · intro _; exact ⟨⟨_, rfl⟩, ⟨_, rfl⟩⟩
    · intro _; omega
  · have h1 : ¬ (a.dim1 = 0) := by rw [h.rows]; omega
    have h2 : Int.fdiv (a.len : Int) a.dim1 = 1 := by
      rw [h.rows, Arr.len, h.size, Int.fdiv_eq_ediv_of_nonneg _ (by omega)]
      exact Int.ediv_self (by omega)
    have hg : a.getIndex i 1 = if i - 1 < 0 then .error .indexError else .ok (i - 1) := by
      simp only [Arr.getIndex, h1, if_false, h2, h.off]
      have : (1 : Int) * (i - 1) + (1 - 1) - 0 = i - 1 := by omega
      rw [this]
    simp only [Arr.get1, Arr.set1, Arr.get, Arr.set, hg]
    by_cases hneg : i - 1 < 0
    · simp only [hneg, if_true]
      constructor
      · intro _; exact ⟨⟨_, rfl⟩, ⟨_, rfl⟩⟩
      · intro _; omega
    · simp only [hneg, if_false]
      rw [index_toNat (by omega), Arr.len, h.size]
      by_cases hge : (n : Int) ≤ i - 1
      · have h3 : a.data[(i - 1).toNat]? = none := List.getElem?_eq_none (by rw [h.size]; omega)
        have h4 : ¬ (i - 1 < (n : Int)) := by omega
        simp only [h3, h4, if_false]
        constructor
        · intro _; exact ⟨⟨_, rfl⟩, ⟨_, rfl⟩⟩
        · intro _; omega
      · have h4 : (i - 1 < (n : Int)) := by omega
        simp only [h4, if_true]
        constructor
        · intro _; omega
        · rintro ⟨_, ⟨e, he⟩⟩; cases he

example : Is1D (Arr.init false 4) 4 ∧ (Arr.init false 4).get1 5 = .error .indexError :=
  ⟨Is1D_init false 4, by decide⟩

/-! ## C11 -/

/-- What ASCAN should return: `p` is the first position at or after `lo`, before
`hi` (1-based, exclusive), that holds `v`; 0 if there is none. -/
def IsFirstPos (data : List α) (v : α) (lo hi : Nat) (p : Int) : Prop :=
  (∃ k : Nat, p = k ∧ lo ≤ k ∧ k < hi ∧ data[k - 1]? = some v ∧
    ∀ q : Nat, lo ≤ q → q < k → data[q - 1]? ≠ some v) ∨
  (p = 0 ∧ ∀ q : Nat, lo ≤ q → q < hi → data[q - 1]? ≠ some v)

theorem ascan_slice [DecidableEq α] (data : List α) (v : α) (s n : Nat) (hs : 1 ≤ s) :
    IsFirstPos data v s (s + n)
      (match indexOf ((data.drop (s - 1)).take n) v with
        | some i => (i : Int) + 1 + ((s : Int) - 1)
        | none => 0) := by
  have hget : ∀ k, k < n → ((data.drop (s - 1)).take n)[k]? = data[s + k - 1]? := by
    intro k hk
    rw [List.getElem?_take_of_lt hk, List.getElem?_drop]
    congr 1; omega
  cases h : indexOf ((data.drop (s - 1)).take n) v with
  | some i =>
    obtain ⟨h1, h2⟩ := indexOf_some.mp h
    have hi : i < n := by
      have hl := (List.getElem?_eq_some_iff.mp h1).1
      simp at hl; omega
    left
    refine ⟨s + i, by push_cast; omega, by omega, by omega, ?_, ?_⟩
    · rw [← hget i hi]; exact h1
    · intro q hq1 hq2
      have := h2 (q - s) (by omega)
      rw [hget _ (by omega)] at this
      have e : s + (q - s) - 1 = q - 1 := by omega
      rwa [e] at this
  | none =>
    right
    refine ⟨rfl, fun q h1 h2 hc => ?_⟩
    have h3 := indexOf_none.mp h
    apply h3
    have := hget (q - s) (by omega)
    have e : s + (q - s) - 1 = q - 1 := by omega
    rw [e, hc] at this
    exact List.mem_of_getElem? this

/-- C11: ASCAN with start and count, for every array, start ≥ 1 and count. -/
theorem C11_ascan_start_count [DecidableEq α] (a : Arr α) (v : α) (s n : Nat) (hs : 1 ≤ s) :
    IsFirstPos a.data v s (s + n) (a.ascan v (some (s, some n))) := by
  have h1 : ((s : Int) - 1) = ((s - 1 : Nat) : Int) := by omega
  have h2 : ((s : Int) + n - 1) = ((s + n - 1 : Nat) : Int) := by omega
  have := ascan_slice a.data v s n hs
  simp only [Arr.ascan, Arr.subarray, Arr.indexVal, Option.map_some, h2]
  rw [show (some ((s : Int) - 1)) = some ((s - 1 : Nat) : Int) by rw [h1], slice_nat]
  have e : s + n - 1 - (s - 1) = n := by omega
  rw [e]
  rw [h1] at this ⊢
  exact this

example : (Arr.mk true 0 2 [5, 6, 5, 8]).ascan (5 : Int) (some (2, some 1)) = 0 ∧
    (Arr.mk true 0 2 [5, 6, 5, 8]).ascan (5 : Int) (some (2, some 2)) = 3 := by decide

/-- C11: ASCAN with a start only. -/
theorem C11_ascan_start [DecidableEq α] (a : Arr α) (v : α) (s : Nat) (hs : 1 ≤ s) :
    IsFirstPos a.data v s (s + a.data.length) (a.ascan v (some (s, none))) := by
  have h1 : ((s : Int) - 1) = ((s - 1 : Nat) : Int) := by omega
  have := ascan_slice a.data v s a.data.length hs
  simp only [Arr.ascan, Arr.subarray, Arr.indexVal, Option.map_none]
  rw [show (some ((s : Int) - 1)) = some ((s - 1 : Nat) : Int) by rw [h1], slice_from]
  rw [List.take_of_length_le (by simp)] at this
  rw [h1] at this ⊢
  exact this

example : (Arr.mk true 0 2 [5, 6, 5, 8]).ascan (5 : Int) (some (2, none)) = 3 := by decide

/-- C11: ASCAN of a whole array. -/
theorem C11_ascan [DecidableEq α] (a : Arr α) (h0 : a.offset = 0) (v : α) :
    IsFirstPos a.data v 1 (1 + a.data.length) (a.ascan v none) := by
  have := ascan_slice a.data v 1 a.data.length (by omega)
  simp only [Arr.ascan, Arr.indexVal, h0]
  rw [List.take_of_length_le (by simp), show (1 - 1 : Nat) = 0 from rfl, List.drop_zero] at this
  cases h : indexOf a.data v with
  | some i => rw [h] at this; simpa using this
  | none => rw [h] at this; simpa using this

example : (Arr.mk true 0 2 [5, 6, 5, 8]).ascan (5 : Int) (some (2, some 2)) = 3 ∧
    (Arr.mk true 0 2 [5, 6, 5, 8]).ascan (5 : Int) (some (4, some 1)) = 0 := by decide

/-! ## C58 -/

/-- C58 fails in every array with several columns: with one subscript `k` it gives the first element of row
`k`, which is another element than the one with that number, and the numbers above that of the last row are
rejected. -/
theorem C58_single_subscript_fails (a : Arr α) (r c : Nat) (h : Is2D a r c) (hr : 1 ≤ r) (k : Nat) (hk : 1 ≤ k) :
    (k ≤ r → 1 ≤ c → ∃ v, a.get1 k = .ok v ∧ a.data[(k - 1) * c]? = some v) ∧
    (2 ≤ k → 2 ≤ c → (k - 1) * c ≠ k - 1) ∧
    (r < k → a.get1 k = .error .indexError) := by
  have hg : a.getIndex k 1 = .ok (((k - 1) * c : Nat) : Int) := by
    rw [getIndex_eq h hr]
    have e : (c : Int) * ((k : Int) - 1) + (1 - 1) = (((k - 1) * c : Nat) : Int) := by
      rw [Int.natCast_mul, Int.mul_comm, show (k : Int) - 1 = ((k - 1 : Nat) : Int) by omega]
      omega
    rw [e, if_neg (by omega)]
  refine ⟨fun hle hc => ?_, fun h2 hc he => ?_, fun hlt => ?_⟩
  · have hlt : (k - 1) * c < a.data.length := by
      rw [h.size]
      exact Nat.mul_lt_mul_of_pos_right (by omega) hc
    refine ⟨a.data[(k - 1) * c], ?_, List.getElem?_eq_getElem hlt⟩
    simp only [Arr.get1, Arr.get, hg, index_nat, List.getElem?_eq_getElem hlt]
  · have : (k - 1) * 2 ≤ (k - 1) * c := Nat.mul_le_mul_left _ hc
    omega
  · have hge : a.data.length ≤ (k - 1) * c := by
      rw [h.size]
      exact Nat.mul_le_mul_right _ (by omega)
    simp only [Arr.get1, Arr.get, hg, index_nat, List.getElem?_eq_none hge]

example : Is2D (⟨true, 0, 2, [0, 7, 0, 0]⟩ : Arr Int) 2 2 ∧
    (⟨true, 0, 2, [0, 7, 0, 0]⟩ : Arr Int).get1 2 = .ok 0 ∧
    (⟨true, 0, 2, [0, 7, 0, 0]⟩ : Arr Int).get1 3 = .error .indexError := ⟨⟨rfl, rfl, rfl, rfl⟩, by decide, by decide⟩

/-- C58, what does hold: with one subscript, a one-dimensional array (or one with
a single column) gives the element with that number.  Missing: arrays with more
than one column. -/
theorem C58_single_subscript_partial (a : Arr α) (r : Nat) (h : Is2D a r 1 ∨ Is1D a r) (k : Nat)
    (hk : 1 ≤ k ∧ k ≤ r) : ∃ v, a.get1 k = .ok v ∧ a.data[k - 1]? = some v := by
  have h1 : a.dim1 = r ∧ a.data.length = r ∧ a.offset = 0 := by
    rcases h with h | h
    · exact ⟨h.rows, by simpa using h.size, h.off⟩
    · exact ⟨h.rows, h.size, h.off⟩
  obtain ⟨hd, hs, ho⟩ := h1
  have h1 : ¬ (a.dim1 = 0) := by rw [hd]; omega
  have h2 : Int.fdiv (a.len : Int) a.dim1 = 1 := by
    rw [hd, Arr.len, hs, Int.fdiv_eq_ediv_of_nonneg _ (by omega)]
    exact Int.ediv_self (by omega)
  have hg : a.getIndex k 1 = .ok ((k - 1 : Nat) : Int) := by
    simp only [Arr.getIndex, h1, if_false, h2, ho]
    have e : (1 : Int) * ((k : Int) - 1) + (1 - 1) - 0 = ((k - 1 : Nat) : Int) := by omega
    rw [e]
    have : ¬ (((k - 1 : Nat) : Int) < 0) := by omega
    simp only [this, if_false]
  have hlt : k - 1 < a.data.length := by omega
  refine ⟨a.data[k - 1], ?_, List.getElem?_eq_getElem hlt⟩
  simp only [Arr.get1, Arr.get, hg, index_nat, List.getElem?_eq_getElem hlt]

example : Is2D (⟨true, 0, 3, [4, 5, 6]⟩ : Arr Int) 3 1 ∧ (⟨true, 0, 3, [4, 5, 6]⟩ : Arr Int).get1 2 = .ok 5 := by
  exact ⟨⟨rfl, rfl, rfl, rfl⟩, by decide⟩

end Props
