import Verif.Model.ForEach
import Verif.Props.Array
/-!
# C156: FOR EACH
-/
namespace Props

namespace ForEachSpec
open Model (Arr)
open Model.ForEach (Out)

/-- An array of `r` rows and `c` columns; one column for an array with one dimension. -/
structure Shape {α : Type} (a : Arr α) (r c : Nat) : Prop where
  rows : a.dim1 = r
  size : a.data.length = r * c
  off : a.offset = 0

/-- The subscripts of all elements, row after row. -/
def subscripts (r c : Nat) : List (Int × Int) :=
  (List.range r).flatMap fun (i : Nat) => (List.range c).map fun (j : Nat) => ((i : Int) + 1, (j : Int) + 1)

/-- FOR EACH in FoxPro: for one element after the other the variable gets the value that the element has at that
time, then the lines are run; LOOP goes on with the next element, EXIT ends the loop. -/
def Loop {α γ : Type} (bind : γ → α → γ) (body : Arr α × γ → (Arr α × γ) × Out) :
    List (Int × Int) → Arr α × γ → (Arr α × γ) × Out → Prop
  | [], s, res => res = (s, .next)
  | (i, j) :: rest, s, res => ∃ v, s.1.get i j = .ok v ∧
    ∃ s' o, body (s.1, bind s.2 v) = (s', o) ∧
      ((o = .next ∨ o = .continue_) ∧ Loop bind body rest s' res ∨ o = .break_ ∧ res = (s', .next) ∨ o = .leave ∧ res = (s', .leave))

end ForEachSpec

namespace ForEachAux
open Model Model.ForEach ForEachSpec

variable {α γ : Type}

theorem get_shape {a : Arr α} {r c : Nat} (h : Shape a r c) {i j : Nat} (hi : i < r) (hj : j < c) :
    ∃ v, a.data[i * c + j]? = some v ∧ a.get ((i : Int) + 1) ((j : Int) + 1) = .ok v := by
  have hlt : i * c + j < a.data.length := by
    rw [h.size]
    calc i * c + j < i * c + c := by omega
      _ = (i + 1) * c := by rw [Nat.add_mul]; omega
      _ ≤ r * c := Nat.mul_le_mul_right c hi
  refine ⟨_, List.getElem?_eq_getElem hlt, ?_⟩
  have h1 : ¬ (a.dim1 = 0) := by rw [h.rows]; omega
  have h2 : Int.fdiv (a.len : Int) a.dim1 = c := by
    rw [h.rows, Arr.len, h.size, Int.fdiv_eq_ediv_of_nonneg _ (by omega)]
    push_cast
    rw [Int.mul_ediv_cancel_left _ (by omega)]
  have h3 : (c : Int) * ((i : Int) + 1 - 1) + ((j : Int) + 1 - 1) - 0 = ((i * c + j : Nat) : Int) := by
    push_cast
    rw [Int.mul_comm]
    simp
  have hg : a.getIndex ((i : Int) + 1) ((j : Int) + 1) = .ok ((i * c + j : Nat) : Int) := by
    simp only [Arr.getIndex, h1, if_false, h2, h.off, h3]
    rw [if_neg (by omega)]
  rw [Arr.get, hg]
  simp only [index_toNat (Int.natCast_nonneg _), Int.toNat_natCast, List.getElem?_eq_getElem hlt]

theorem subs_eq (r c : Nat) : subscripts r c = (List.range (r * c)).map fun k => (((k / c : Nat) : Int) + 1, ((k % c : Nat) : Int) + 1) := by
  induction r with
  | zero => simp [subscripts]
  | succ r ih =>
    have e : (r + 1) * c = r * c + c := by rw [Nat.add_mul]; omega
    have e1 : subscripts (r + 1) c = subscripts r c ++ (List.range c).map fun (j : Nat) => ((r : Int) + 1, (j : Int) + 1) := by
      simp [subscripts, List.range_succ]
    rw [e1, ih, e, List.range_add, List.map_append, List.map_map]
    congr 1
    apply List.map_congr_left
    intro j hj
    have hj := List.mem_range.1 hj
    have hc : 0 < c := by omega
    have d1 : (r * c + j) / c = r := by
      rw [Nat.mul_comm, Nat.mul_add_div hc, Nat.div_eq_of_lt hj]; omega
    have d2 : (r * c + j) % c = j := by
      rw [Nat.mul_comm, Nat.mul_add_mod, Nat.mod_eq_of_lt hj]
    simp only [Function.comp, d1, d2]

/-- The lines keep the shape of the array. -/
def Keeps (body : Arr α × γ → (Arr α × γ) × Out) (r c : Nat) : Prop :=
  ∀ s, Shape s.1 r c → Shape (body s).1.1 r c

theorem loop_eq (bind : γ → α → γ) {body : Arr α × γ → (Arr α × γ) × Out} {r c : Nat} (hb : Keeps body r c) :
    ∀ (n k : Nat) (s : Arr α × γ), Shape s.1 r c → k + n = r * c →
      Loop bind body (((List.range' k n)).map fun k => (((k / c : Nat) : Int) + 1, ((k % c : Nat) : Int) + 1)) s (loop bind body n k s)
  | 0, k, s, _, _ => by simp [Loop, loop]
  | n + 1, k, s, hs, hk => by
    have hc : 0 < c := by
      rcases Nat.eq_zero_or_pos c with h | h
      · subst h; simp at hk
      · exact h
    have hi : k / c < r := by rw [Nat.div_lt_iff_lt_mul hc]; omega
    obtain ⟨v, h1, h2⟩ := get_shape hs hi (Nat.mod_lt k hc)
    have he : k / c * c + k % c = k := by rw [Nat.mul_comm]; exact Nat.div_add_mod k c
    rw [he] at h1
    rw [List.range'_succ, List.map_cons, Loop, loop]
    simp only [h1]
    refine ⟨v, h2, (body (s.1, bind s.2 v)).1, (body (s.1, bind s.2 v)).2, rfl, ?_⟩
    have hs' := hb (s.1, bind s.2 v) hs
    have ih := loop_eq bind hb n (k + 1) (body (s.1, bind s.2 v)).1 hs' (by omega)
    generalize body (s.1, bind s.2 v) = res at ih hs' ⊢
    obtain ⟨s', o⟩ := res
    cases o with
    | next => exact .inl ⟨.inl rfl, ih⟩
    | continue_ => exact .inl ⟨.inr rfl, ih⟩
    | break_ => exact .inr (.inl ⟨rfl, rfl⟩)
    | leave => exact .inr (.inr ⟨rfl, rfl⟩)

theorem loop_det (bind : γ → α → γ) (body : Arr α × γ → (Arr α × γ) × Out) (l : List (Int × Int)) (s : Arr α × γ) (x y)
    (hx : Loop bind body l s x) (hy : Loop bind body l s y) : x = y := by
  induction l generalizing s with
  | nil => rw [hx, hy]
  | cons p l ih =>
    obtain ⟨v, h1, s', o, h2, h3⟩ := hx
    obtain ⟨w, k1, t', q, k2, k3⟩ := hy
    rw [h1] at k1
    cases k1
    rw [h2] at k2
    cases k2
    rcases h3 with ⟨a, h3⟩ | ⟨a, h3⟩ | ⟨a, h3⟩ <;> rcases k3 with ⟨b, k3⟩ | ⟨b, k3⟩ | ⟨b, k3⟩
    · exact ih _ h3 k3
    all_goals first
      | (rw [h3, k3]; done)
      | (rcases a with a | a <;> rw [a] at b <;> cases b)
      | (rcases b with b | b <;> rw [a] at b <;> cases b)
      | (rw [a] at b; cases b)

end ForEachAux

open Model Model.ForEach ForEachSpec ForEachAux

/-- **C156** for loops whose lines do not dimension the array anew: FOR EACH does for every array, of one or two
dimensions, what FoxPro does. -/
theorem C156_array_partial {α γ : Type} (bind : γ → α → γ) (body : Arr α × γ → (Arr α × γ) × Out) (a : Arr α) (g : γ) (r c : Nat)
    (h : Shape a r c) (hb : ∀ s, Shape s.1 r c → Shape (body s).1.1 r c) (res : (Arr α × γ) × Out) :
    forEach bind body (a, g) = res ↔ Loop bind body (subscripts r c) (a, g) res := by
  have := loop_eq bind hb (r * c) 0 (a, g) h (by omega)
  rw [← List.range_eq_range', ← subs_eq] at this
  unfold forEach
  rw [h.size]
  constructor
  · rintro rfl; exact this
  · intro hr; exact loop_det _ _ _ _ _ _ this hr

/-- FOR EACH over a 2 by 2 array whose lines set the element below the current one and note all values. -/
def ForEachDemo.run : (Arr Nat × List Nat) × Out :=
  forEach (fun g v => g ++ [v]) (fun s => match s.1.set 2 s.2.length 9 with
    | .ok a => ((a, s.2), .next)
    | .error _ => (s, .break_)) (⟨true, 0, 2, [1, 2, 3, 4]⟩, [])

example : Shape (⟨true, 0, 2, [1, 2, 3, 4]⟩ : Arr Nat) 2 2 ∧ ForEachDemo.run = ((⟨true, 0, 2, [1, 2, 9, 9]⟩, [1, 2, 9]), .next) :=
  ⟨⟨rfl, rfl, rfl⟩, by decide +kernel⟩

/-- **C156**: lines that neither leave the loop nor dimension the array anew are run once for each element. -/
theorem C156_all {α γ : Type} (bind : γ → α → γ) (step : Arr α × γ → Arr α × γ) (a : Arr α) (g : γ) (r c : Nat)
    (h : Shape a r c) (hb : ∀ s, Shape s.1 r c → Shape (step s).1 r c) (count : γ → Nat) (hc : ∀ s v, count (bind s v) = count s + 1)
    (hk : ∀ s, count (step s).2 = count s.2) :
    (forEach bind (fun s => (step s, .next)) (a, g)).2 = .next ∧ count (forEach bind (fun s => (step s, .next)) (a, g)).1.2 = count g + r * c := by
  have key : ∀ (n k : Nat) (s : Arr α × γ), Shape s.1 r c → k + n = r * c →
      (loop bind (fun s => (step s, .next)) n k s).2 = .next ∧ count (loop bind (fun s => (step s, .next)) n k s).1.2 = count s.2 + n := by
    intro n
    induction n with
    | zero => intro k s _ _; exact ⟨rfl, rfl⟩
    | succ n ih =>
      intro k s hs hkn
      have hlt : k < s.1.data.length := by rw [hs.size]; omega
      rw [loop]
      simp only [List.getElem?_eq_getElem hlt]
      have := ih (k + 1) (step (s.1, bind s.2 s.1.data[k])) (hb _ hs) (by omega)
      refine ⟨this.1, ?_⟩
      rw [this.2, hk, hc]
      omega
  have := key (r * c) 0 (a, g) h (by omega)
  unfold forEach
  rw [h.size]
  exact this

example : (forEach (fun (g : List Nat) v => g ++ [v]) (fun s => (s, .next)) ((⟨false, 0, 3, [5, 6, 7]⟩ : Arr Nat), [])).1.2 = [5, 6, 7] ∧
    (∀ (g : List Nat) (v : Nat), (g ++ [v]).length = g.length + 1) := ⟨by decide +kernel, by simp⟩

end Props
