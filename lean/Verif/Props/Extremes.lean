import Verif.Model.Extremes
/-!
# C145: INT, CEILING, MAX, MIN and INLIST
-/
namespace Props
open Model.Extremes

namespace ExtremesSpec

/-- INT(r): the fraction is cut off. -/
def IsInt (r : Rat) (n : Int) : Prop :=
  (0 ≤ r → (n : Rat) ≤ r ∧ r < ((n + 1 : Int) : Rat)) ∧ (r < 0 → r ≤ (n : Rat) ∧ ((n - 1 : Int) : Rat) < r)

/-- The text filled up with blanks. -/
def padTo (n : Nat) (s : List Char) : List Char := s ++ List.replicate (n - s.length) ' '

/-- The first character in which the texts differ is smaller. -/
def Before (s t : List Char) : Prop :=
  ∃ p a b s' t', s = p ++ a :: s' ∧ t = p ++ b :: t' ∧ a < b

/-- FoxPro's order of texts (SET COLLATE TO MACHINE): the shorter one is filled up with blanks. -/
def TextLess (s t : List Char) : Prop := Before (padTo (s.length + t.length) s) (padTo (s.length + t.length) t)

/-- FoxPro's `<`. -/
def Less : Val → Val → Prop
  | .num a, .num b => a < b
  | .text s, .text t => TextLess s t
  | .date d, .date e => d < e
  | _, _ => False

/-- The kind of a value; the arguments of a FoxPro function are of one kind. -/
inductive Kind | num | text | date

/-- Values of a kind; the texts have no control characters. -/
def Kind.Has : Kind → Val → Prop
  | .num, .num _ => True
  | .text, .text s => ∀ c ∈ s, ' ' ≤ c
  | .date, .date _ => True
  | _, _ => False

/-- FoxPro's `=` of texts: with SET EXACT ON the shorter one is filled with blanks, with SET EXACT OFF
the comparison ends where the one on the right ends. -/
def TextEqual (exact : Bool) (s t : List Char) : Prop :=
  if exact then padTo (s.length + t.length) s = padTo (s.length + t.length) t else t <+: s

/-- FoxPro's `=`. -/
def Equal (exact : Bool) : Val → Val → Prop
  | .num a, .num b => a = b
  | .text s, .text t => TextEqual exact s t
  | .date d, .date e => d = e
  | _, _ => False

/-- The value of INLIST(x, ...): .NULL. is `none`. -/
inductive Inlist (exact : Bool) (x : Val) (ys : List Val) : Option Bool → Prop
  | found (hx : x ≠ .null) (y : Val) (hy : y ∈ ys) (h : Equal exact x y) : Inlist exact x ys (some true)
  | missing (hx : x ≠ .null) (hn : .null ∉ ys) (h : ∀ y ∈ ys, ¬ Equal exact x y) : Inlist exact x ys (some false)
  | null (hx : x = .null) : Inlist exact x ys none
  | unknown (hx : x ≠ .null) (hn : .null ∈ ys) (h : ∀ y ∈ ys, ¬ Equal exact x y) : Inlist exact x ys none

end ExtremesSpec

open ExtremesSpec

namespace ExtremesAux

theorem before_cons {c d : Char} {s t : List Char} : Before (c :: s) (d :: t) ↔ c < d ∨ (c = d ∧ Before s t) := by
  constructor
  · rintro ⟨p, a, b, s', t', h1, h2, hab⟩
    cases p with
    | nil => cases h1; cases h2; exact .inl hab
    | cons x p => cases h1; cases h2; exact .inr ⟨rfl, p, a, b, s', t', rfl, rfl, hab⟩
  · rintro (h | ⟨rfl, p, a, b, s', t', rfl, rfl, hab⟩)
    · exact ⟨[], c, d, s, t, rfl, rfl, h⟩
    · exact ⟨c :: p, a, b, s', t', rfl, rfl, hab⟩

theorem not_before_refl (s : List Char) : ¬ Before s s := by
  induction s with
  | nil => rintro ⟨p, a, b, s', t', h, _⟩; cases p <;> cases h
  | cons c s ih =>
    rw [before_cons]
    rintro (h | ⟨_, h⟩)
    · exact absurd h (Char.lt_irrefl c)
    · exact ih h

theorem not_before_blanks {n : Nat} {s : List Char} (h : ∀ c ∈ s, ' ' ≤ c) :
    ¬ Before (s ++ List.replicate n ' ') (List.replicate (n + s.length) ' ') := by
  induction s with
  | nil => simpa using not_before_refl _
  | cons c s ih =>
    have e : List.replicate (n + (c :: s).length) ' ' = ' ' :: List.replicate (n + s.length) ' ' := by
      rw [List.length_cons, ← Nat.add_assoc, List.replicate_succ]
    rw [List.cons_append, e, before_cons]
    rintro (h' | ⟨_, h'⟩)
    · exact absurd h' (by simpa using h c (by simp))
    · exact ih (fun x hx => h x (List.mem_cons_of_mem _ hx)) h'

/-- Texts in the order of Python are in FoxPro's order. -/
theorem not_less {s t : List Char} (n m : Nat) (hn : n + s.length = m + t.length) (hs : ∀ c ∈ s, ' ' ≤ c) (h : ¬ s < t) :
    ¬ Before (s ++ List.replicate n ' ') (t ++ List.replicate m ' ') := by
  induction s generalizing t with
  | nil =>
    cases t with
    | nil =>
      have : n = m := by simpa using hn
      subst this
      exact not_before_refl _
    | cons d t => exact absurd (List.nil_lt_cons d t) h
  | cons c s ih =>
    cases t with
    | nil =>
      have e : m = n + (c :: s).length := by simpa using hn.symm
      subst e
      exact not_before_blanks hs
    | cons d t =>
      rw [List.cons_append, List.cons_append, before_cons]
      rw [List.cons_lt_cons_iff] at h
      rintro (h' | ⟨rfl, h'⟩)
      · exact h (.inl h')
      · exact ih (by simp at hn; omega) (fun x hx => hs x (List.mem_cons_of_mem _ hx)) (fun hl => h (.inr ⟨rfl, hl⟩)) h'

/-- `lt` is decided for values of one kind, and its negation is transitive. -/
theorem lt_kind {k : Kind} {x y : Val} (hx : k.Has x) (hy : k.Has y) : ∃ b, lt x y = some b := by
  cases k <;> cases x <;> cases y <;> first | exact hx.elim | exact hy.elim | exact ⟨_, rfl⟩

theorem lt_trans {k : Kind} {x y z : Val} (hx : k.Has x) (hy : k.Has y) (hz : k.Has z)
    (h1 : lt x y = some false) (h2 : lt y z = some false) : lt x z = some false := by
  cases k <;> cases x <;> cases y <;> cases z <;> first | exact hx.elim | exact hy.elim | exact hz.elim | skip
  · simp only [lt, Option.some.injEq, decide_eq_false_iff_not, Rat.not_lt] at *
    exact Rat.le_trans h2 h1
  · simp only [lt, Option.some.injEq, decide_eq_false_iff_not, List.not_lt] at *
    exact List.le_trans h2 h1
  · simp only [lt, Option.some.injEq, decide_eq_false_iff_not] at *
    omega

theorem lt_asymm {k : Kind} {x y : Val} (hx : k.Has x) (hy : k.Has y) (h : lt x y = some true) : lt y x = some false := by
  cases k <;> cases x <;> cases y <;> first | exact hx.elim | exact hy.elim | skip
  · simp only [lt, Option.some.injEq, decide_eq_false_iff_not, decide_eq_true_eq, Rat.not_lt] at *
    exact Rat.le_of_lt h
  · simp only [lt, Option.some.injEq, decide_eq_false_iff_not, decide_eq_true_eq, List.not_lt] at *
    exact List.le_of_lt h
  · simp only [lt, Option.some.injEq, decide_eq_false_iff_not, decide_eq_true_eq] at *
    omega

theorem lt_self {k : Kind} {x : Val} (hx : k.Has x) : lt x x = some false := by
  obtain ⟨b, hb⟩ := lt_kind hx hx
  cases b with
  | false => exact hb
  | true => exact absurd (Option.some.inj ((lt_asymm hx hx hb).symm.trans hb)) (by decide)

theorem lt_less {k : Kind} {x y : Val} (hx : k.Has x) (hy : k.Has y) (h : lt x y = some false) : ¬ Less x y := by
  cases k <;> cases x <;> cases y <;> first | exact hx.elim | exact hy.elim | skip
  · simpa [lt, Less] using h
  · rename_i s t
    simp only [lt, Option.some.injEq, decide_eq_false_iff_not] at h
    exact not_less _ _ (by omega) hx h
  · simpa [lt, Less] using h

theorem pick_max {k : Kind} : ∀ (xs : List Val) (m : Val), k.Has m → (∀ x ∈ xs, k.Has x) →
    ∃ r, pick (fun y m => lt m y) m xs = some r ∧ r ∈ m :: xs ∧ k.Has r ∧ ∀ y ∈ m :: xs, lt r y = some false
  | [], m, hm, _ => ⟨m, rfl, by simp, hm, by simpa using lt_self hm⟩
  | x :: xs, m, hm, hxs => by
    have hx := hxs x (by simp)
    obtain ⟨b, hb⟩ := lt_kind hm hx
    cases b with
    | false =>
      obtain ⟨r, h1, h2, h3, h4⟩ := pick_max xs m hm (fun y hy => hxs y (List.mem_cons_of_mem _ hy))
      refine ⟨r, by rw [pick, hb]; exact h1, ?_, h3, ?_⟩
      · rcases List.mem_cons.1 h2 with h | h
        · rw [h]; simp
        · exact List.mem_cons_of_mem _ (List.mem_cons_of_mem _ h)
      · intro y hy
        rcases List.mem_cons.1 hy with rfl | hy
        · exact h4 _ (by simp)
        · rcases List.mem_cons.1 hy with rfl | hy
          · exact lt_trans h3 hm hx (h4 m (by simp)) hb
          · exact h4 y (List.mem_cons_of_mem _ hy)
    | true =>
      obtain ⟨r, h1, h2, h3, h4⟩ := pick_max xs x hx (fun y hy => hxs y (List.mem_cons_of_mem _ hy))
      refine ⟨r, by rw [pick, hb]; exact h1, List.mem_cons_of_mem _ h2, h3, ?_⟩
      intro y hy
      rcases List.mem_cons.1 hy with rfl | hy
      · exact lt_trans h3 hx hm (h4 x (by simp)) (lt_asymm hm hx hb)
      · exact h4 y hy

theorem pick_min {k : Kind} : ∀ (xs : List Val) (m : Val), k.Has m → (∀ x ∈ xs, k.Has x) →
    ∃ r, pick lt m xs = some r ∧ r ∈ m :: xs ∧ k.Has r ∧ ∀ y ∈ m :: xs, lt y r = some false
  | [], m, hm, _ => ⟨m, rfl, by simp, hm, by simpa using lt_self hm⟩
  | x :: xs, m, hm, hxs => by
    have hx := hxs x (by simp)
    obtain ⟨b, hb⟩ := lt_kind hx hm
    cases b with
    | false =>
      obtain ⟨r, h1, h2, h3, h4⟩ := pick_min xs m hm (fun y hy => hxs y (List.mem_cons_of_mem _ hy))
      refine ⟨r, by rw [pick, hb]; exact h1, ?_, h3, ?_⟩
      · rcases List.mem_cons.1 h2 with h | h
        · rw [h]; simp
        · exact List.mem_cons_of_mem _ (List.mem_cons_of_mem _ h)
      · intro y hy
        rcases List.mem_cons.1 hy with rfl | hy
        · exact h4 _ (by simp)
        · rcases List.mem_cons.1 hy with rfl | hy
          · exact lt_trans hx hm h3 hb (h4 m (by simp))
          · exact h4 y (List.mem_cons_of_mem _ hy)
    | true =>
      obtain ⟨r, h1, h2, h3, h4⟩ := pick_min xs x hx (fun y hy => hxs y (List.mem_cons_of_mem _ hy))
      refine ⟨r, by rw [pick, hb]; exact h1, List.mem_cons_of_mem _ h2, h3, ?_⟩
      intro y hy
      rcases List.mem_cons.1 hy with rfl | hy
      · exact lt_trans hm hx h3 (lt_asymm hx hm hb) (h4 x (by simp))
      · exact h4 y hy

theorem lt_null (x : Val) : lt x .null = none ∧ lt .null x = none := by cases x <;> exact ⟨rfl, rfl⟩

theorem pick_null (better : Val → Val → Option Bool) (hb : ∀ x, better x .null = none ∧ better .null x = none) :
    ∀ (xs : List Val) (m : Val), xs ≠ [] → .null ∈ m :: xs → pick better m xs = none
  | [], _, h, _ => absurd rfl h
  | x :: xs, m, _, hm => by
    rw [pick]
    by_cases h1 : m = .null
    · rw [h1, (hb x).1]
    · by_cases h2 : x = .null
      · rw [h2, (hb m).2]
      · have h3 : .null ∈ xs := by
          rcases List.mem_cons.1 hm with h | h
          · exact absurd h.symm h1
          · rcases List.mem_cons.1 h with h | h
            · exact absurd h.symm h2
            · exact h
        have hne : xs ≠ [] := List.ne_nil_of_mem h3
        cases better x m with
        | none => rfl
        | some b =>
          cases b with
          | false => exact pick_null better hb xs m hne (List.mem_cons_of_mem _ h3)
          | true => exact pick_null better hb xs x hne (List.mem_cons_of_mem _ h3)

theorem inlist_true {x : Val} {ys : List Val} : inlist x ys = true ↔ x ∈ ys := by
  unfold inlist
  rw [List.any_eq_true]
  constructor
  · rintro ⟨y, hy, h⟩
    rw [← eq_of_beq h]; exact hy
  · intro h
    exact ⟨x, h, beq_self_eq_true x⟩

theorem equal_self {exact : Bool} {x : Val} (h : x ≠ .null) : Equal exact x x := by
  cases x with
  | num r => exact rfl
  | date d => exact rfl
  | null => exact absurd rfl h
  | text s =>
    show TextEqual exact s s
    unfold TextEqual
    split
    · rfl
    · exact List.prefix_refl s

end ExtremesAux

open ExtremesAux

/-- C145: INT cuts the fraction off, for negative numbers as well. -/
theorem C145_int (r : Rat) (n : Int) : toInt r = n ↔ IsInt r n := by
  have hd : (0 : Int) < r.den := Int.natCast_pos.2 r.den_pos
  unfold toInt IsInt
  have h0 : (0 : Rat).num = 0 := rfl
  have h1 : (0 : Rat).den = 1 := rfl
  simp only [Rat.le_iff, Rat.lt_iff, Rat.num_intCast, Rat.den_intCast, h0, h1, Int.natCast_one, Int.mul_one, Int.zero_mul]
  generalize (r.den : Int) = d at *
  generalize r.num = a
  by_cases ha : 0 ≤ a
  · rw [Int.tdiv_eq_ediv_of_nonneg ha]
    have key : a / d = n ↔ n * d ≤ a ∧ a < (n + 1) * d := by
      rw [← Int.le_ediv_iff_mul_le hd, ← Int.ediv_lt_iff_lt_mul hd]; omega
    rw [key]
    exact ⟨fun h => ⟨fun _ => h, fun h' => absurd ha (by omega)⟩, fun h => h.1 ha⟩
  · have e : a.tdiv d = -((-a) / d) := by
      rw [← Int.tdiv_eq_ediv_of_nonneg (by omega : 0 ≤ -a), Int.neg_tdiv, Int.neg_neg]
    have key : -((-a) / d) = n ↔ a ≤ n * d ∧ (n - 1) * d < a := by
      have h1 : (-n) ≤ (-a) / d ↔ -n * d ≤ -a := Int.le_ediv_iff_mul_le hd
      have h2 : (-a) / d < -n + 1 ↔ -a < (-n + 1) * d := Int.ediv_lt_iff_lt_mul hd
      rw [Int.neg_mul] at h1
      rw [Int.add_mul, Int.neg_mul, Int.one_mul] at h2
      rw [Int.sub_mul, Int.one_mul]
      omega
    rw [e, key]
    exact ⟨fun h => ⟨fun h' => absurd h' ha, fun _ => h⟩, fun h => h.2 (by omega)⟩

example : toInt (-17 / 2) = -8 ∧ IsInt (-17 / 2) (-8) := ⟨by decide +kernel, (C145_int _ _).1 (by decide +kernel)⟩

/-- C145: CEILING is the least whole number that is not below the argument. -/
theorem C145_ceiling (r : Rat) (n : Int) : ceil r ≤ n ↔ r ≤ (n : Rat) := by
  have hd : (0 : Int) < r.den := Int.natCast_pos.2 r.den_pos
  unfold ceil
  simp only [Rat.le_iff, Rat.num_intCast, Rat.den_intCast, Int.natCast_one, Int.mul_one]
  have h : (-n) ≤ (-r.num) / r.den ↔ -n * r.den ≤ -r.num := Int.le_ediv_iff_mul_le hd
  rw [Int.neg_mul] at h
  omega

example : ceil (-17 / 2) = -8 ∧ ceil (17 / 2) = 9 := by decide +kernel

/-- C145: MAX is one of its arguments, and none of them is larger: numbers, dates and texts without control
characters. -/
theorem C145_max {k : Kind} (x : Val) (xs : List Val) (h : ∀ y ∈ x :: xs, k.Has y) :
    ∃ m, max x xs = some m ∧ m ∈ x :: xs ∧ ∀ y ∈ x :: xs, ¬ Less m y := by
  obtain ⟨r, h1, h2, h3, h4⟩ := pick_max xs x (h x (by simp)) (fun y hy => h y (List.mem_cons_of_mem _ hy))
  exact ⟨r, h1, h2, fun y hy => lt_less h3 (h y hy) (h4 y hy)⟩

example : ∃ m, max (.text "ab".toList) [.text "b".toList, .text "ab ".toList] = some m ∧ ¬ Less m (.text "ab ".toList) := by
  obtain ⟨m, h1, _, h3⟩ := C145_max (k := .text) (.text "ab".toList) [.text "b".toList, .text "ab ".toList] (by
    intro y hy
    simp only [List.mem_cons, List.not_mem_nil, or_false] at hy
    rcases hy with rfl | rfl | rfl <;> (show ∀ c ∈ _, _) <;> decide)
  exact ⟨m, h1, h3 _ (by simp)⟩

/-- C145 fails for texts with control characters: a text `s` is larger than `s` and a tabulator in FoxPro, where
the shorter text is filled up with blanks, but MAX returns the other one. -/
theorem C145_control_fails (s : List Char) (c : Char) (hc : c < ' ') :
    max (.text s) [.text (s ++ [c])] = some (.text (s ++ [c])) ∧ Less (.text (s ++ [c])) (.text s) := by
  constructor
  · have h : s < s ++ [c] := by
      induction s with
      | nil => exact List.nil_lt_cons _ _
      | cons a s ih => exact List.cons_lt_cons_iff.2 (.inr ⟨rfl, ih⟩)
    simp [Model.Extremes.max, pick, lt, h]
  · refine ⟨s, c, ' ', List.replicate s.length ' ', List.replicate s.length ' ', ?_, ?_, hc⟩
    · simp [padTo]
    · have : (s ++ [c]).length + s.length - s.length = s.length + 1 := by simp
      rw [padTo, this, List.replicate_succ]

example : max (.text "a".toList) [.text "a\t".toList] = some (.text "a\t".toList) := (C145_control_fails ['a'] '\t' (by decide)).1

/-- C145: MIN is one of its arguments, and none of them is smaller. -/
theorem C145_min {k : Kind} (x : Val) (xs : List Val) (h : ∀ y ∈ x :: xs, k.Has y) :
    ∃ m, min x xs = some m ∧ m ∈ x :: xs ∧ ∀ y ∈ x :: xs, ¬ Less y m := by
  obtain ⟨r, h1, h2, h3, h4⟩ := pick_min xs x (h x (by simp)) (fun y hy => h y (List.mem_cons_of_mem _ hy))
  exact ⟨r, h1, h2, fun y hy => lt_less (h y hy) h3 (h4 y hy)⟩

example : min (.num 3) [.num (1 / 2), .num 2] = some (.num (1 / 2)) := by decide +kernel

/-- C145 fails: with a .NULL. among the arguments MAX and MIN raise an exception, whatever the others are;
FoxPro returns .NULL. -/
theorem C145_null_fails (x : Val) (xs : List Val) (hxs : xs ≠ []) (h : .null ∈ x :: xs) : max x xs = none ∧ min x xs = none :=
  ⟨pick_null _ (fun y => ⟨(lt_null y).2, (lt_null y).1⟩) xs x hxs h, pick_null _ lt_null xs x hxs h⟩

example : max (.num 1) [.num 2, .null, .num 3] = none := (C145_null_fails _ _ (by simp) (by simp)).1

/-- C145: what INLIST gives is FoxPro's value exactly if the first argument is not .NULL., an argument that
FoxPro takes for equal to it is accompanied by one that is the same, and with a .NULL. in the list the first
argument is found.  So numbers and dates are always right; texts are not, if one in the list is
a beginning of the first argument (SET EXACT OFF) or differs from it by blanks at the end (ON). -/
theorem C145_inlist_iff (exact : Bool) (x : Val) (ys : List Val) :
    Inlist exact x ys (some (inlist x ys)) ↔
      x ≠ .null ∧ ((∃ y ∈ ys, Equal exact x y) → x ∈ ys) ∧ (.null ∈ ys → x ∈ ys) := by
  constructor
  · generalize hv : some (inlist x ys) = v
    intro h
    cases h with
    | found hx y hy h =>
      have := inlist_true.1 (Option.some.inj hv)
      exact ⟨hx, fun _ => this, fun _ => this⟩
    | missing hx hn h => exact ⟨hx, fun ⟨y, hy, h'⟩ => absurd h' (h y hy), fun h' => absurd h' hn⟩
    | null hx => cases hv
    | unknown => cases hv
  · rintro ⟨hx, h1, h2⟩
    by_cases hm : x ∈ ys
    · rw [inlist_true.2 hm]
      exact .found hx x hm (equal_self hx)
    · have : inlist x ys = false := Bool.eq_false_iff.2 (fun h => hm (inlist_true.1 h))
      rw [this]
      exact .missing hx (fun h => hm (h2 h)) (fun y hy h => hm (h1 ⟨y, hy, h⟩))

example : Inlist true (.num 3) [.num 1, .num 3] (some true) :=
  (C145_inlist_iff true (.num 3) [.num 1, .num 3]).2 ⟨by simp, fun _ => by simp, fun _ => by simp⟩

/-- C145: INLIST of numbers or of dates is FoxPro's. -/
theorem C145_inlist_partial (exact : Bool) (x : Val) (ys : List Val) (h : ∀ y ∈ x :: ys, (∃ r, y = .num r) ∨ ∃ d, y = .date d) :
    Inlist exact x ys (some (inlist x ys)) := by
  rw [C145_inlist_iff]
  refine ⟨?_, ?_, ?_⟩
  · rcases h x (by simp) with ⟨r, rfl⟩ | ⟨d, rfl⟩ <;> simp
  · rintro ⟨y, hy, he⟩
    have : x = y := by
      rcases h x (by simp) with ⟨r, rfl⟩ | ⟨d, rfl⟩ <;>
        rcases h y (List.mem_cons_of_mem _ hy) with ⟨r', rfl⟩ | ⟨d', rfl⟩ <;>
        first | exact congrArg _ he | exact he.elim
    rw [this]; exact hy
  · intro hn
    rcases h .null (List.mem_cons_of_mem _ hn) with ⟨r, hr⟩ | ⟨d, hd⟩
    · cases hr
    · cases hd

example : Inlist false (.date 738000) [.date 738001, .date 738000] (some true) :=
  C145_inlist_partial false (.date 738000) [.date 738001, .date 738000] (by simp)

/-- C145 fails: INLIST('Smith', 'Sm') with SET EXACT OFF: every text that begins with `t` and is longer. -/
theorem C145_beginning_fails (t u : List Char) (hu : u ≠ []) :
    inlist (.text (t ++ u)) [.text t] = false ∧ Inlist false (.text (t ++ u)) [.text t] (some true) := by
  refine ⟨Bool.eq_false_iff.2 (fun h => ?_), .found (by simp) (.text t) (by simp) (List.prefix_append t u)⟩
  have := inlist_true.1 h
  simp at this
  exact hu this

example : inlist (.text "Smith".toList) [.text "Sm".toList] = false :=
  (C145_beginning_fails "Sm".toList "ith".toList (by decide)).1

end Props
