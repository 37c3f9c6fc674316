import Verif.Model.Strings
import Verif.Spec.Strings
namespace Model.Strings
open Py Spec.Strings

theorem occursAt_zero {old s : Str} : OccursAt old s 0 ↔ old.isPrefixOf s = true := by
  rw [List.isPrefixOf_iff_prefix]
  constructor
  · rintro ⟨t, h⟩; exact ⟨t, by simpa using h.symm⟩
  · rintro ⟨t, h⟩; exact ⟨t, by simpa using h.symm⟩

theorem occursAt_succ {old s : Str} {c : Char} {k : Nat} :
    OccursAt old (c :: s) (k + 1) ↔ OccursAt old s k := by
  simp [OccursAt]

theorem findIdx_some {s old : Str} {k : Nat} (h : findIdx s old = some k) :
    OccursAt old s k ∧ ∀ j, j < k → ¬ OccursAt old s j := by
  induction s generalizing k with
  | nil =>
    simp only [findIdx] at h
    split at h
    · cases h; rename_i h; subst h; exact ⟨⟨[], rfl⟩, by intros; omega⟩
    · cases h
  | cons c s ih =>
    simp only [findIdx] at h
    split at h
    · cases h; rename_i h; exact ⟨occursAt_zero.mpr h, by intros; omega⟩
    · rename_i h0
      cases hf : findIdx s old with
      | none => rw [hf] at h; cases h
      | some j =>
        rw [hf] at h; cases h
        obtain ⟨h1, h2⟩ := ih hf
        refine ⟨occursAt_succ.mpr h1, ?_⟩
        intro i hi
        cases i with
        | zero => rw [occursAt_zero]; exact h0
        | succ i => rw [occursAt_succ]; exact h2 i (by simp at hi; omega)

theorem findIdx_none {s old : Str} (h : findIdx s old = none) : ∀ k, ¬ OccursAt old s k := by
  induction s with
  | nil =>
    simp only [findIdx] at h
    split at h
    · cases h
    · rename_i h0
      rintro k ⟨t, ht⟩
      simp at ht
      exact h0 ht.1
  | cons c s ih =>
    simp only [findIdx] at h
    split at h
    · cases h
    · rename_i h0
      intro k
      cases k with
      | zero => rw [occursAt_zero]; exact h0
      | succ k =>
        rw [occursAt_succ]
        apply ih
        cases hf : findIdx s old with
        | none => rfl
        | some j => rw [hf] at h; cases h

theorem findIdx_eq {s old : Str} {k : Nat} (h1 : OccursAt old s k)
    (h2 : ∀ j, j < k → ¬ OccursAt old s j) : findIdx s old = some k := by
  cases h : findIdx s old with
  | none => exact absurd h1 (findIdx_none h k)
  | some j =>
    obtain ⟨h3, h4⟩ := findIdx_some h
    rcases Nat.lt_trichotomy j k with hlt | heq | hgt
    · exact absurd h3 (h2 j hlt)
    · rw [heq]
    · exact absurd h1 (h4 k hgt)

theorem findIdx_eq_none {s old : Str} (h : ∀ k, ¬ OccursAt old s k) : findIdx s old = none := by
  cases hf : findIdx s old with
  | none => rfl
  | some k => exact absurd (findIdx_some hf).1 (h k)

theorem occursAt_append {a old rest : Str} : OccursAt old (a ++ old ++ rest) a.length :=
  ⟨rest, by simp⟩

theorem findIdx_step {a old rest : Str} (h : ∀ k, k < a.length → ¬ OccursAt old (a ++ old ++ rest) k) :
    findIdx (a ++ old ++ rest) old = some a.length := findIdx_eq occursAt_append h

/-! ### STRTRAN -/

theorem split_join {old s : Str} {ps : List Str} (h : Split old s ps) (new : Str) (sel : Nat → Bool)
    (i : Nat) (hs : ∀ j, i ≤ j → sel j = false) : joinSel old new sel i ps = s := by
  induction h generalizing i with
  | last h => rfl
  | step h hr ih =>
    rename_i a rest ps
    cases ps with
    | nil => cases hr
    | cons q qs =>
      rw [joinSel, ih (i + 1) (fun j hj => hs j (by omega)), hs i (Nat.le_refl _)]
      simp

theorem split_ne_nil {old s : Str} {ps : List Str} (h : Split old s ps) : ps ≠ [] := by
  cases h <;> simp

theorem replaceFuel_split {old new s : Str} {ps : List Str} (hold : old ≠ []) (h : Split old s ps)
    (n : Nat) (hn : s.length < n) (i : Nat) (count : Option Nat) :
    replaceFuel old new n s count = joinSel old new (chosen i count) i ps := by
  have hl : 0 < old.length := List.length_pos_iff.mpr hold
  induction h generalizing n i count with
  | last h =>
    rename_i s
    cases n with
    | zero => omega
    | succ n =>
      rw [replaceFuel, findIdx_eq_none h]
      simp [joinSel]
  | step h hr ih =>
    rename_i a rest ps
    cases n with
    | zero => omega
    | succ n =>
      rw [replaceFuel]
      by_cases hc : count = some 0
      · rw [if_pos hc]
        refine (split_join (.step h hr) new _ i ?_).symm
        intro j hj
        simp [chosen, hc, hj]
      · rw [if_neg hc, findIdx_step h]
        simp only
        have e1 : (a ++ old ++ rest).take a.length = a := by simp
        have e2 : (a ++ old ++ rest).drop (a.length + old.length) = rest := by
          rw [← List.length_append, List.drop_left]
        rw [e1, e2, ih n (by simp at hn; omega) (i + 1)]
        have hps := split_ne_nil hr
        cases ps with
        | nil => exact absurd rfl hps
        | cons q qs =>
          rw [joinSel]
          have hsel : chosen i count i = true := by
            cases count with
            | none => simp [chosen]
            | some c =>
              have : c ≠ 0 := fun h => hc (by rw [h])
              simp [chosen]; omega
          rw [if_pos hsel]
          congr 1
          have : ∀ (j : Nat) (l : List Str), i + 1 ≤ j →
              joinSel old new (chosen (i + 1) (count.map (· - 1))) j l
                = joinSel old new (chosen i count) j l := by
            intro j l
            induction l generalizing j with
            | nil => intro _; rfl
            | cons p l ihl =>
              intro hj
              cases l with
              | nil => rfl
              | cons q l =>
                rw [joinSel, joinSel, ihl (j + 1) (by omega)]
                have : chosen (i + 1) (count.map (· - 1)) j = chosen i count j := by
                  cases count with
                  | none => simp [chosen]; omega
                  | some c =>
                    have : c ≠ 0 := fun h => hc (by rw [h])
                    simp only [chosen, Option.map_some]
                    have a1 : (i + 1 ≤ j) = True := by simp; omega
                    have a2 : (i ≤ j) = True := by simp; omega
                    have a3 : (j < i + 1 + (c - 1)) = (j < i + c) := by
                      apply propext; constructor <;> intro <;> omega
                    simp only [a1, a2, a3]
                rw [this]
          exact this _ _ (Nat.le_refl _)

theorem replaceN_split {old new s : Str} {ps : List Str} (hold : old ≠ []) (h : Split old s ps)
    (i : Nat) (count : Option Nat) :
    replaceN s old new count = joinSel old new (chosen i count) i ps := by
  rw [replaceN, if_neg hold]
  exact replaceFuel_split hold h _ (Nat.lt_succ_self _) i count

/-- No occurrence in a text means none in its suffixes. -/
theorem no_occ_drop {old s : Str} (h : ∀ k, ¬ OccursAt old s k) (n : Nat) :
    ∀ k, ¬ OccursAt old (s.drop n) k := by
  rintro k ⟨t, ht⟩
  exact h (n + k) ⟨t, by rw [← ht, List.drop_drop]⟩

theorem slice_split {s : Str} (n : Nat) :
    slice s none (some (n : Int)) ++ slice s (some (n : Int)) none = s := by
  simp only [slice, clampIdx_nonneg]
  rw [List.take_of_length_le (l := List.drop (min n s.length) s) (by simp)]
  simp

theorem skipLoop_none {old : Str} (hold : old ≠ []) (n : Nat) (ret s : Str)
    (h : ∀ k, ¬ OccursAt old s k) :
    (skipLoop old n ret s).1 ++ (skipLoop old n ret s).2 = ret ++ s
      ∧ ∀ k, ¬ OccursAt old (skipLoop old n ret s).2 k := by
  have hl : 0 < old.length := List.length_pos_iff.mpr hold
  induction n generalizing ret s with
  | zero => exact ⟨rfl, h⟩
  | succ n ih =>
    rw [skipLoop]
    have e : find s old + (old.length : Int) = ((old.length - 1 : Nat) : Int) := by
      simp [find, findIdx_eq_none h]; omega
    simp only [e]
    have hd : slice s (some ((old.length - 1 : Nat) : Int)) none = s.drop (min (old.length - 1) s.length) := by
      simp only [slice, clampIdx_nonneg]
      rw [List.take_of_length_le (by simp)]
    have := ih (ret ++ slice s none (some ((old.length - 1 : Nat) : Int)))
      (slice s (some ((old.length - 1 : Nat) : Int)) none) (by rw [hd]; exact no_occ_drop h _)
    refine ⟨?_, this.2⟩
    rw [this.1, List.append_assoc, slice_split]

theorem slice_pre {a b : Str} : slice (a ++ b) none (some (a.length : Int)) = a := by
  simp [slice, clampIdx_nonneg]

theorem slice_suf {a b : Str} : slice (a ++ b) (some (a.length : Int)) none = b := by
  simp [slice, clampIdx_nonneg]

/-- The skipping loop leaves the first `n` occurrences alone. -/
theorem skip_replace {old new s : Str} {ps : List Str} (hold : old ≠ []) (h : Split old s ps)
    (n i : Nat) (ret : Str) (count : Option Nat) :
    (skipLoop old n ret s).1 ++ replaceN (skipLoop old n ret s).2 old new count
      = ret ++ joinSel old new (chosen (i + n) count) i ps := by
  induction n generalizing ret s ps i with
  | zero => rw [skipLoop, replaceN_split hold h i count]; rfl
  | succ n ih =>
    cases h with
    | last h =>
      have hs := skipLoop_none hold (n + 1) ret s h
      have : replaceN (skipLoop old (n + 1) ret s).2 old new count = (skipLoop old (n + 1) ret s).2 := by
        rw [replaceN_split hold (.last hs.2) 0 count]; rfl
      rw [this, hs.1]; rfl
    | step h hr =>
      rename_i a rest ps
      rw [skipLoop]
      have e : find (a ++ old ++ rest) old + (old.length : Int) = ((a ++ old).length : Int) := by
        rw [find, findIdx_step h]; simp
      simp only [e]
      rw [slice_pre, slice_suf, ih hr (i + 1)]
      cases ps with
      | nil => exact absurd rfl (split_ne_nil hr)
      | cons q qs =>
        rw [joinSel]
        have e2 : i + 1 + n = i + (n + 1) := by omega
        have : chosen (i + (n + 1)) count i = false := by
          simp [chosen]; omega
        simp [this, e2]

/-- Every text has its pieces. -/
theorem split_exists {old : Str} (hold : old ≠ []) (n : Nat) (s : Str) (hn : s.length < n) :
    ∃ ps, Split old s ps := by
  have hl : 0 < old.length := List.length_pos_iff.mpr hold
  induction n generalizing s with
  | zero => omega
  | succ n ih =>
    cases h : findIdx s old with
    | none => exact ⟨_, .last (findIdx_none h)⟩
    | some k =>
      obtain ⟨⟨t, ht⟩, h2⟩ := findIdx_some h
      have hk : k ≤ s.length := by
        apply Classical.byContradiction; intro hk
        rw [List.drop_of_length_le (by omega)] at ht
        have := congrArg List.length ht
        simp at this; omega
      have hs : s = s.take k ++ old ++ t := by
        rw [List.append_assoc, ← ht, List.take_append_drop]
      have hlen : s.length = k + (old.length + t.length) := by
        have := congrArg List.length hs
        simp [Nat.min_eq_left hk] at this; omega
      obtain ⟨ps, hps⟩ := ih t (by omega)
      refine ⟨s.take k :: ps, ?_⟩
      have hstep : Split old (s.take k ++ old ++ t) (s.take k :: ps) := by
        refine .step ?_ hps
        rw [← hs]
        intro j hj
        exact h2 j (by simp at hj; omega)
      rw [← hs] at hstep
      exact hstep

/-! ### CHRTRAN -/

theorem indexOf_idxOf (l : Str) (c : Char) : indexOf l c = l.idxOf? c := by
  induction l with
  | nil => rfl
  | cons x l ih =>
    rw [List.idxOf?_cons, indexOf]
    by_cases h : x = c
    · simp [h]
    · simp [h, ih]

theorem chrtran_eq (s f t : Str) :
    chrtran s f t
      = if ∀ c ∈ s, ∀ k, f.idxOf? c = some k → k < t.length then some (s.flatMap (translate f t))
        else none := by
  induction s with
  | nil => simp [chrtran]
  | cons c s ih =>
    have key : (∀ x ∈ c :: s, ∀ k, f.idxOf? x = some k → k < t.length) ↔
        (∀ k, f.idxOf? c = some k → k < t.length) ∧
          ∀ x ∈ s, ∀ k, f.idxOf? x = some k → k < t.length := by simp
    rw [chrtran, ih, indexOf_idxOf]
    cases hk : f.idxOf? c with
    | none =>
      simp only
      have : (∀ x ∈ c :: s, ∀ k, f.idxOf? x = some k → k < t.length) ↔
          ∀ x ∈ s, ∀ k, f.idxOf? x = some k → k < t.length := by
        rw [key]; simp [hk]
      simp only [this]
      split <;> simp [translate, hk]
    | some k =>
      simp only [Py.index]
      have hnn : ¬ ((k : Int) < 0) := by omega
      simp only [hnn, if_false, Int.toNat_natCast]
      by_cases hlt : k < t.length
      · have : (∀ x ∈ c :: s, ∀ k, f.idxOf? x = some k → k < t.length) ↔
            ∀ x ∈ s, ∀ k, f.idxOf? x = some k → k < t.length := by
          rw [key]; simp [hk, hlt]
        rw [List.getElem?_eq_getElem hlt]
        simp only [this]
        split <;> simp [translate, hk, hlt]
      · have hn : t[k]? = none := List.getElem?_eq_none (by omega)
        rw [hn]
        show none = _
        rw [if_neg (fun h => hlt (h c (by simp) k hk))]

/-! ### Words -/

variable {p : Char → Bool}

theorem splitSpace_sp {c : Char} (h : p c = true) (s : Str) :
    splitSpace p (c :: s) = splitSpace p s := by
  cases s <;> simp [splitSpace, h]

theorem splitSpace_last {c : Char} (h : p c = false) : splitSpace p [c] = [[c]] := by
  simp [splitSpace, h]

theorem splitSpace_end {c d : Char} (h : p c = false) (hd : p d = true) (s : Str) :
    splitSpace p (c :: d :: s) = [c] :: splitSpace p (d :: s) := by
  rw [splitSpace, if_neg (by simp [h]), if_pos hd]

theorem splitSpace_in {c d : Char} (h : p c = false) (hd : p d = false) {s w : Str} {ws : List Str}
    (hr : splitSpace p (d :: s) = w :: ws) :
    splitSpace p (c :: d :: s) = (c :: w) :: ws := by
  rw [splitSpace, if_neg (by simp [h]), if_neg (by simp [hd]), hr]

theorem splitSpace_all {s : Str} (h : ∀ c ∈ s, p c = true) : splitSpace p s = [] := by
  induction s with
  | nil => rfl
  | cons c s ih =>
    rw [splitSpace_sp (h c (by simp))]
    exact ih (fun x hx => h x (by simp [hx]))

theorem splitSpace_pre {pre : Str} (h : ∀ c ∈ pre, p c = true) (t : Str) :
    splitSpace p (pre ++ t) = splitSpace p t := by
  induction pre with
  | nil => rfl
  | cons c s ih =>
    rw [List.cons_append, splitSpace_sp (h c (by simp))]
    exact ih (fun x hx => h x (by simp [hx]))

theorem splitSpace_word {w : Str} (hw : w ≠ []) (hnd : ∀ c ∈ w, p c = false) {rest : Str}
    (hend : ∀ c, rest.head? = some c → p c = true) :
    splitSpace p (w ++ rest) = w :: splitSpace p rest := by
  induction w with
  | nil => exact absurd rfl hw
  | cons c w ih =>
    have hc := hnd c (by simp)
    cases w with
    | nil =>
      cases rest with
      | nil => exact splitSpace_last hc
      | cons d r => exact splitSpace_end hc (hend d rfl) r
    | cons d w =>
      exact splitSpace_in hc (hnd d (by simp)) (ih (by simp) (fun x hx => hnd x (by simp [hx])))

theorem splitSpace_words {s : Str} {ws : List Str} (h : Words p s ws) : splitSpace p s = ws := by
  induction h with
  | none h => exact splitSpace_all h
  | word hpre hw hnd hend hr ih =>
    rw [List.append_assoc, splitSpace_pre hpre, splitSpace_word hw hnd hend, ih]

theorem words_exists (n : Nat) (s : Str) (hn : s.length < n) : ∃ ws, Words p s ws := by
  induction n generalizing s with
  | zero => omega
  | succ n ih =>
    have e1 : s = s.takeWhile p ++ s.dropWhile p := (List.takeWhile_append_dropWhile).symm
    have h1 : ∀ c ∈ s.takeWhile p, p c = true := fun c hc => by
      have := List.all_takeWhile (l := s) (p := p)
      rw [List.all_eq_true] at this
      exact this c hc
    generalize s.takeWhile p = pre at *
    generalize ht : s.dropWhile p = t at *
    cases t with
    | nil => exact ⟨[], .none (by rw [e1]; simpa using h1)⟩
    | cons c t =>
      have hc : p c = false := by
        have := List.head?_dropWhile_not p s
        rw [ht] at this
        simpa using this
      have e2 : c :: t = (c :: t).takeWhile (fun x => !p x) ++ (c :: t).dropWhile (fun x => !p x) :=
        (List.takeWhile_append_dropWhile).symm
      have hw : (c :: t).takeWhile (fun x => !p x) = c :: t.takeWhile (fun x => !p x) := by
        simp [hc]
      have hd : (c :: t).dropWhile (fun x => !p x) = t.dropWhile (fun x => !p x) := by
        simp [hc]
      have hlen : (t.dropWhile (fun x => !p x)).length ≤ t.length :=
        (List.dropWhile_suffix _).length_le
      obtain ⟨ws, hws⟩ := ih (t.dropWhile (fun x => !p x)) (by
        have := congrArg List.length e1
        simp at this; omega)
      refine ⟨(c :: t.takeWhile (fun x => !p x)) :: ws, ?_⟩
      rw [e1, e2, hw, hd, ← List.append_assoc]
      refine .word h1 (by simp) ?_ ?_ hws
      · intro x hx
        have := List.all_takeWhile (l := c :: t) (p := fun x => !p x)
        rw [List.all_eq_true, hw] at this
        simpa using this x hx
      · intro x hx
        have := List.head?_dropWhile_not (fun x => !p x) t
        rw [hx] at this
        simpa using this

theorem splitFuel_words (d : Char) (n : Nat) (s : Str) (hn : s.length < n) :
    (splitFuel [d] n s).filter (· ≠ []) = splitSpace (· == d) s := by
  induction n generalizing s with
  | zero => omega
  | succ n ih =>
    rw [splitFuel]
    cases h : findIdx s [d] with
    | none =>
      have h0 := findIdx_none h
      have hnd : ∀ c ∈ s, (c == d) = false := by
        intro c hc
        obtain ⟨i, hi, rfl⟩ := List.mem_iff_getElem.mp hc
        cases he : s[i] == d with
        | false => rfl
        | true =>
          exfalso
          apply h0 i
          refine ⟨s.drop (i + 1), ?_⟩
          rw [List.drop_eq_getElem_cons hi, beq_iff_eq.mp he]; rfl
      by_cases hs : s = []
      · simp [hs, splitSpace]
      · have := splitSpace_word (p := (· == d)) hs hnd (rest := []) (by simp)
        simp [splitSpace] at this
        simp [this, hs]
    | some k =>
      obtain ⟨⟨t, ht⟩, h2⟩ := findIdx_some h
      have hk : k < s.length := by
        apply Classical.byContradiction; intro hk
        rw [List.drop_of_length_le (by omega)] at ht
        simp at ht
      have hs : s = s.take k ++ d :: t := by
        have := (List.take_append_drop k s).symm
        rw [ht] at this
        exact this
      have hnd : ∀ c ∈ s.take k, (c == d) = false := by
        intro c hc
        obtain ⟨i, hi, rfl⟩ := List.mem_iff_getElem.mp hc
        simp at hi
        cases he : (s.take k)[i] == d with
        | false => rfl
        | true =>
          exfalso
          apply h2 i (by omega)
          refine ⟨s.drop (i + 1), ?_⟩
          rw [List.drop_eq_getElem_cons (by omega)]
          have := beq_iff_eq.mp he
          rw [List.getElem_take] at this
          rw [this]; rfl
      have hdrop : s.drop (k + [d].length) = t := by
        rw [← List.drop_drop, ht]; rfl
      have hlen : t.length < n := by
        have := congrArg List.length ht
        simp at this; omega
      simp only
      rw [hdrop, List.filter_cons, ih t hlen]
      by_cases hsk : s.take k = []
      · rw [hsk] at hs
        have : splitSpace (· == d) s = splitSpace (· == d) t := by
          rw [hs, List.nil_append, splitSpace_sp (by simp)]
        simp [hsk, this]
      · have : splitSpace (· == d) s = s.take k :: splitSpace (· == d) t := by
          conv => lhs; rw [hs]
          rw [splitSpace_word hsk hnd (by simp), splitSpace_sp (by simp)]
        simp [hsk, this]

/-! ### STREXTRACT -/

theorem startsWith_beq (b s : Str) : startsWith (· == ·) b s = b.isPrefixOf s := by
  induction b generalizing s with
  | nil => simp [startsWith]
  | cons c b ih =>
    cases s with
    | nil => rfl
    | cons d s => simp [startsWith, ih, List.isPrefixOf]

theorem lazyUpTo_eq (stop t : Str) (hn : '\n' ∉ t) :
    lazyUpTo (· == ·) stop t = (findIdx t stop).map (t.take ·) := by
  induction t with
  | nil =>
    rw [lazyUpTo, findIdx, startsWith_beq]
    cases stop <;> simp
  | cons c t ih =>
    simp at hn
    rw [lazyUpTo, findIdx, startsWith_beq]
    split
    · simp
    · rw [if_neg (Ne.symm hn.1), ih hn.2]
      cases findIdx t stop <;> simp

theorem findAll_some {eqc : Char → Char → Bool} {b e s m : Str} {k : Nat} (n : Nat)
    (h : extractHere eqc b e s = some (m, k)) :
    findAll eqc b e (n + 1) s = (m, s.take k) :: findAll eqc b e n (s.drop k) := by
  cases s <;> simp [findAll, h]

theorem findAll_none {eqc : Char → Char → Bool} {b e s : Str} (n : Nat)
    (h : extractHere eqc b e s = none) :
    findAll eqc b e (n + 1) s = if s = [] then [] else findAll eqc b e n s.tail := by
  cases s <;> simp [findAll, h]

theorem findAll_nil {b e : Str} (he : e ≠ []) (n : Nat) (s : Str)
    (h : ¬ ∃ x m rest, s = x ++ b ++ m ++ e ++ rest) (hn : '\n' ∉ s) :
    findAll (· == ·) b e n s = [] := by
  induction n generalizing s with
  | zero => rfl
  | succ n ih =>
    have hh : extractHere (· == ·) b e s = none := by
      unfold extractHere
      split
      · rename_i hb
        rw [startsWith_beq, List.isPrefixOf_iff_prefix] at hb
        obtain ⟨t, rfl⟩ := hb
        simp only [List.drop_left]
        rw [lazyUpTo_eq _ _ (by simp at hn; exact hn.2)]
        cases hf : findIdx t e with
        | none => rfl
        | some k =>
          exfalso
          obtain ⟨⟨r, hr⟩, _⟩ := findIdx_some hf
          apply h
          refine ⟨[], t.take k, r, ?_⟩
          simp only [List.nil_append, List.append_assoc]
          rw [← hr, List.take_append_drop]
      · rfl
    rw [findAll_none n hh]
    cases s with
    | nil => rfl
    | cons c s =>
      rw [if_neg (by simp)]
      apply ih
      · rintro ⟨x, m, rest, hx⟩
        exact h ⟨c :: x, m, rest, congrArg (c :: ·) hx⟩
      · simp at hn; exact hn.2

theorem findAll_skip {b e : Str} (n : Nat) (x s : Str)
    (hx : ∀ k, k < x.length → ¬ OccursAt b (x ++ s) k) :
    findAll (· == ·) b e (x.length + n) (x ++ s) = findAll (· == ·) b e n s := by
  induction x with
  | nil => simp
  | cons c x ih =>
    have e1 : (c :: x).length + n = (x.length + n) + 1 := by simp; omega
    have h0 : extractHere (· == ·) b e (c :: x ++ s) = none := by
      unfold extractHere
      rw [if_neg]
      rw [startsWith_beq, ← occursAt_zero]
      exact hx 0 (by simp)
    rw [e1, findAll_none _ h0, if_neg (by simp)]
    simp only [List.cons_append, List.tail_cons]
    apply ih
    intro k hk h
    exact hx (k + 1) (by simp; omega) (occursAt_succ.mpr h)

theorem findAll_between {b e s : Str} {l : List Str} (hb : b ≠ []) (he : e ≠ []) (hn : '\n' ∉ s)
    (h : Between b e s l) (n : Nat) (hl : s.length < n) :
    findAll (· == ·) b e n s = l.map fun m => (m, b ++ m ++ e) := by
  induction h generalizing n with
  | done h => exact findAll_nil he n _ h hn
  | step hx hm hr ih =>
    rename_i x m rest l
    have hbl : 0 < b.length := List.length_pos_iff.mpr hb
    obtain ⟨k, rfl⟩ : ∃ k, n = x.length + (k + 1) := ⟨n - x.length - 1, by simp at hl; omega⟩
    have e1 : x ++ b ++ m ++ e ++ rest = x ++ (b ++ (m ++ e ++ rest)) := by simp
    have hmn : '\n' ∉ m ++ e ++ rest := fun h => hn (by simp at h ⊢; exact Or.inr (Or.inr h))
    have hrn : '\n' ∉ rest := fun h => hn (by simp; exact Or.inr (Or.inr (Or.inr (Or.inr h))))
    rw [e1, findAll_skip _ _ _ (by rw [← e1]; exact hx)]
    have hh : extractHere (· == ·) b e (b ++ (m ++ e ++ rest))
        = some (m, b.length + m.length + e.length) := by
      unfold extractHere
      rw [if_pos (by rw [startsWith_beq, List.isPrefixOf_iff_prefix]; exact ⟨_, rfl⟩)]
      simp only [List.drop_left, if_neg he]
      rw [lazyUpTo_eq _ _ hmn, findIdx_eq (k := m.length) occursAt_append hm]
      simp
    rw [findAll_some _ hh]
    have e2 : b ++ (m ++ e ++ rest) = (b ++ m ++ e) ++ rest := by simp
    have e3 : b.length + m.length + e.length = (b ++ m ++ e).length := by simp; omega
    rw [e2, e3, List.take_left, List.drop_left, ih hrn k (by simp at hl; omega)]
    simp

theorem between_exists {b e : Str} (hb : b ≠ []) (he : e ≠ []) (n : Nat) (s : Str) (hn : s.length < n) :
    ∃ l, Between b e s l := by
  induction n generalizing s with
  | zero => omega
  | succ n ih =>
    have hbl : 0 < b.length := List.length_pos_iff.mpr hb
    cases hf : findIdx s b with
    | none =>
      refine ⟨[], .done ?_⟩
      rintro ⟨x, m, r, hx⟩
      apply findIdx_none hf x.length
      exact ⟨m ++ e ++ r, by rw [hx]; simp⟩
    | some k =>
      obtain ⟨⟨t, ht⟩, h2⟩ := findIdx_some hf
      have hs : s = s.take k ++ (b ++ t) := by rw [← ht, List.take_append_drop]
      have hk : k < s.length := by
        apply Classical.byContradiction; intro hk
        rw [List.drop_of_length_le (by omega)] at ht
        have := congrArg List.length ht
        simp at this; omega
      cases hg : findIdx t e with
      | none =>
        refine ⟨[], .done ?_⟩
        rintro ⟨x, m, r, hx⟩
        -- an occurrence of `e` behind any `b` lies behind the first one
        have hxk : k ≤ x.length := by
          apply Classical.byContradiction; intro h
          exact h2 x.length (by omega) ⟨m ++ e ++ r, by rw [hx]; simp⟩
        have hd : t = s.drop (k + b.length) := by
          rw [← List.drop_drop, ht, List.drop_left]
        apply findIdx_none hg ((x ++ b ++ m).length - (k + b.length))
        refine ⟨r, ?_⟩
        rw [hd, List.drop_drop, hx]
        have : k + b.length + ((x ++ b ++ m).length - (k + b.length)) = (x ++ b ++ m).length := by
          simp; omega
        rw [this, List.append_assoc (x ++ b ++ m), List.drop_left]
      | some j =>
        obtain ⟨⟨r, hr⟩, h4⟩ := findIdx_some hg
        have ht2 : t = t.take j ++ (e ++ r) := by rw [← hr, List.take_append_drop]
        have hlen : r.length < n := by
          have h1 := congrArg List.length ht
          have h3 := congrArg List.length hr
          simp at h1 h3; omega
        have hj : j ≤ t.length := by
          apply Classical.byContradiction; intro hj
          rw [List.drop_of_length_le (by omega)] at hr
          have := congrArg List.length hr
          have := List.length_pos_iff.mpr he
          simp at *; omega
        obtain ⟨l, hl⟩ := ih r hlen
        have key : Between b e (s.take k ++ b ++ t.take j ++ e ++ r) (t.take j :: l) := by
          refine .step ?_ ?_ hl
          · intro i hi
            have : s.take k ++ b ++ t.take j ++ e ++ r = s := by
              conv => rhs; rw [hs, ht2]
              simp
            rw [this]
            exact h2 i (by simp at hi; omega)
          · intro i hi
            have : t.take j ++ e ++ r = t := by
              conv => rhs; rw [ht2]
              simp
            rw [this]
            exact h4 i (by simp at hi; omega)
        have : s.take k ++ b ++ t.take j ++ e ++ r = s := by
          conv => rhs; rw [hs, ht2]
          simp
        rw [this] at key
        exact ⟨_, key⟩

/-! ### LIKE -/

theorem tryMany_iff (f : Str → Bool) (s : Str) :
    tryMany f s = true ↔ ∃ u v, s = u ++ v ∧ '\n' ∉ u ∧ f v = true := by
  induction s with
  | nil =>
    rw [tryMany]
    constructor
    · intro h; exact ⟨[], [], rfl, by simp, h⟩
    · rintro ⟨u, v, h, _, hv⟩
      simp at h; rw [h.2] at hv; exact hv
  | cons c s ih =>
    rw [tryMany, Bool.or_eq_true, Bool.and_eq_true, ih]
    constructor
    · rintro (h | ⟨h1, u, v, h2, h3, h4⟩)
      · exact ⟨[], c :: s, rfl, by simp, h⟩
      · exact ⟨c :: u, v, by rw [h2]; rfl, by simp at h1 ⊢; exact ⟨fun h => h1 h.symm, h3⟩, h4⟩
    · rintro ⟨u, v, h2, h3, h4⟩
      cases u with
      | nil => left; simp at h2; rw [h2]; exact h4
      | cons d u =>
        simp at h2 h3
        right
        exact ⟨by simp [h2.1]; exact fun h => h3.1 h.symm, u, v, h2.2, h3.2, h4⟩

theorem like_iff (p s : Str) (hs : '\n' ∉ s) :
    like p s = true ↔ ∃ a b, s = a ++ b ∧ Wild p a := by
  unfold like
  induction p generalizing s with
  | nil =>
    simp only [pieces, List.map_nil, matchPrefix, true_iff]
    exact ⟨[], s, rfl, .nil⟩
  | cons c p ih =>
    by_cases h1 : c = '*'
    · subst h1
      have : pieces ('*' :: p) = .many :: pieces p := by simp [pieces]
      rw [this, matchPrefix, tryMany_iff]
      constructor
      · rintro ⟨u, v, rfl, hu, hv⟩
        simp at hs
        obtain ⟨a, b, rfl, hw⟩ := (ih v hs.2).mp hv
        exact ⟨u ++ a, b, by simp, .star hw⟩
      · rintro ⟨a, b, rfl, hw⟩
        cases hw with
        | star h =>
          rename_i u v
          simp at hs
          refine ⟨u, v ++ b, by simp, hs.1, (ih _ ?_).mpr ⟨v, b, rfl, h⟩⟩
          simp; exact hs.2
        | lit c h1 h2 h => exact absurd rfl h1
    · by_cases h2 : c = '?'
      · subst h2
        have : pieces ('?' :: p) = .any :: pieces p := by simp [pieces]
        rw [this]
        cases s with
        | nil =>
          simp [matchPrefix]
          intro hw; cases hw
        | cons d s =>
          simp at hs
          simp only [matchPrefix, Bool.and_eq_true, bne_iff_ne, ne_eq]
          rw [ih s hs.2]
          constructor
          · rintro ⟨_, a, b, rfl, hw⟩
            exact ⟨d :: a, b, rfl, .one d hw⟩
          · rintro ⟨a, b, hab, hw⟩
            refine ⟨fun h => hs.1 h.symm, ?_⟩
            cases hw with
            | one x h =>
              simp at hab
              exact ⟨_, b, hab.2, h⟩
            | lit c h1 h2 h => exact absurd rfl h2
      · have : pieces (c :: p) = .lit c :: pieces p := by simp [pieces, h1, h2]
        rw [this]
        cases s with
        | nil =>
          simp [matchPrefix]
          intro hw
          generalize hz : ([] : Str) = z at hw
          cases hw with
          | star h => exact h1 rfl
          | one _ h => cases hz
          | lit _ _ _ h => cases hz
        | cons d s =>
          simp at hs
          simp only [matchPrefix, Bool.and_eq_true, beq_iff_eq]
          rw [ih s hs.2]
          constructor
          · rintro ⟨rfl, a, b, rfl, hw⟩
            exact ⟨c :: a, b, rfl, .lit c h1 h2 hw⟩
          · rintro ⟨a, b, hab, hw⟩
            cases hw with
            | star h => exact absurd rfl h1
            | one x h => exact absurd rfl h2
            | lit c h1 h2 h =>
              simp at hab
              exact ⟨hab.1.symm, _, b, hab.2, h⟩

end Model.Strings
