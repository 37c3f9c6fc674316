import Verif.Lemmas.Strings
/-!
# Properties of the string functions (C12-C18, C62)
-/
namespace Props
abbrev Str := List Char
open Model.Strings hiding Str
open Spec.Strings hiding Str
open Py (slice clampIdx)

/-! ## C12: CHRTRAN -/

/-- CHRTRAN returns a result exactly when every character found in `from_` has a counterpart in
`to`, and then the result is the position-for-position translation.  Missing: the characters
without counterpart should be deleted. -/
theorem C12_chrtran_partial (s from_ to r : Str) :
    chrtran s from_ to = some r ↔
      (∀ c ∈ s, ∀ k, from_.idxOf? c = some k → k < to.length) ∧ r = s.flatMap (translate from_ to) := by
  rw [chrtran_eq]
  split
  · rename_i h
    simp only [Option.some.injEq]
    exact ⟨fun e => ⟨h, e.symm⟩, fun e => e.2.symm⟩
  · rename_i h
    simp only [reduceCtorEq, false_iff]
    exact fun e => h e.1

example : chrtran "banana".toList "an".toList "xy".toList = some ("banana".toList.flatMap (translate "an".toList "xy".toList)) := by decide

/-- In particular nothing goes wrong when `to` is at least as long as `from_`. -/
theorem C12_same_length_partial (s from_ to : Str) (h : from_.length ≤ to.length) :
    chrtran s from_ to = some (s.flatMap (translate from_ to)) := by
  rw [C12_chrtran_partial]
  refine ⟨?_, rfl⟩
  intro c _ k hk
  have : k < from_.length := by
    rw [List.idxOf?_eq_some_iff] at hk
    exact hk.1
  omega

example : chrtran "banana".toList "an".toList "xyz".toList = some "bxyxyx".toList := by decide

/-- Deleting characters, the usual purpose of a shorter `to`, raises IndexError: every text that
contains a character of `from_` that has no counterpart. -/
theorem C12_delete_fails (s from_ : Str) (c : Char) (hc : c ∈ s) (hf : c ∈ from_) :
    chrtran s from_ [] = none := by
  rw [chrtran_eq, if_neg]
  intro h
  have : (from_.idxOf? c).isSome := by simpa using hf
  obtain ⟨k, hk⟩ := Option.isSome_iff_exists.mp this
  exact absurd (h c hc k hk) (by simp)

example : chrtran "a-b".toList "-".toList [] = none := by decide

/-! ## C13: STRTRAN -/

/-- Every text has pieces between the occurrences of a non-empty text, so the theorems below
always apply. -/
theorem C13_pieces_exist (old s : Str) (hold : old ≠ []) : ∃ ps, Split old s ps :=
  split_exists hold _ s (Nat.lt_succ_self _)

example : ∃ ps, Split "aa".toList "aaaxaa".toList ps := C13_pieces_exist _ _ (by decide)

/-- STRTRAN starting with the first occurrence (no start given, or start 0 or 1) and an optional
count replaces exactly the first `count` occurrences. -/
theorem C13_from_first_partial (s old new : Str) (ps : List Str) (hold : old ≠ [])
    (h : Split old s ps) (start : Option Int) (hs : ∀ i, start = some i → i < 2) (count : Option Nat)
    (hc : start = none → count = none) :
    strtranCall s old new start (count.map Int.ofNat) = joinSel old new (chosen 1 count) 1 ps := by
  have hn : ∀ n : Nat, countArg (Int.ofNat n) = some n := by
    intro n; simp [countArg]
  cases start with
  | none => rw [hc rfl]; exact replaceN_split hold h 1 none
  | some i =>
    have hi := hs i rfl
    cases count with
    | none =>
      simp only [strtranCall, Option.map_none, if_pos hi]
      exact replaceN_split hold h 1 none
    | some n =>
      simp only [strtranCall, Option.map_some, if_pos hi, hn]
      exact replaceN_split hold h 1 (some n)

example : Split "ab".toList "xabyabz".toList ["x".toList, "y".toList, "z".toList] := by
  refine .step (a := "x".toList) (rest := "yabz".toList) ?_ (.step (a := "y".toList) (rest := "z".toList) ?_ (.last ?_))
  · intro k hk h; have : k = 0 := by simp at hk; omega
    subst this; simp [OccursAt] at h
  · intro k hk h; have : k = 0 := by simp at hk; omega
    subst this; simp [OccursAt] at h
  · rintro k ⟨t, ht⟩; cases k with
    | zero => simp at ht
    | succ k => simp at ht

example : joinSel "ab".toList "-".toList (chosen 1 (some 1)) 1 ["x".toList, "y".toList, "z".toList]
    = "x-yabz".toList := by decide

/-- What the library function really does when it is called with start `n` (which the converter
does for `n ≥ 2`): it replaces from occurrence number `n + 1` on, not from number `n`. -/
theorem C13_start_off_by_one (s old new : Str) (ps : List Str) (hold : old ≠ []) (h : Split old s ps)
    (n : Nat) (count : Option Nat) (hc : count ≠ some 0) :
    strtran s old new n (count.map Int.ofNat)
      = joinSel old new (chosen (n + 1) count) 1 ps := by
  have hsk : ∀ c, (skipLoop old n [] s).1 ++ replaceN (skipLoop old n [] s).2 old new c
      = joinSel old new (chosen (n + 1) c) 1 ps := by
    intro c
    have := skip_replace (new := new) hold h n 1 [] c
    rw [Nat.add_comm 1 n] at this
    simpa using this
  unfold strtran
  simp only [Int.toNat_natCast]
  cases count with
  | none => exact hsk none
  | some c =>
    have hc0 : c ≠ 0 := fun h => hc (by rw [h])
    have h1 : (Int.ofNat c ≠ 0) := by simp; omega
    have h2 : countArg (Int.ofNat c) = some c := by simp [countArg]
    simp only [Option.map_some, if_pos h1, h2]
    exact hsk (some c)

example : strtran "xabyabzab".toList "ab".toList "-".toList 1 (some 1) = "xaby-zab".toList ∧
    joinSel "ab".toList "-".toList (chosen 2 (some 1)) 1 ["x".toList, "y".toList, "z".toList, []] = "xaby-zab".toList := by decide

theorem joinSel_congr (old new : Str) (f g : Nat → Bool) : ∀ (ps : List Str) (i : Nat), (∀ j, i ≤ j → f j = g j) →
    joinSel old new f i ps = joinSel old new g i ps
  | [], _, _ => rfl
  | [_], _, _ => rfl
  | p :: q :: ps, i, h => by
    rw [joinSel, joinSel, h i (Nat.le_refl i), joinSel_congr old new f g (q :: ps) (i + 1) fun j hj => h j (by omega)]

theorem joinSel_next (old new : Str) (n : Nat) : ∀ (ps : List Str) (i : Nat), i ≤ n →
    (joinSel old new (chosen (n + 1) none) i ps = joinSel old new (chosen n none) i ps ↔
      ps.length ≤ n + 1 - i ∨ old = new)
  | [], i, h => by simp [joinSel]
  | [p], i, h => by
    simp only [joinSel, List.length_cons, List.length_nil, true_iff]
    omega
  | p :: q :: ps, i, h => by
    rw [joinSel, joinSel]
    by_cases hi : i = n
    · subst hi
      have e := joinSel_congr old new (chosen (i + 1) none) (chosen i none) (q :: ps) (i + 1) fun j hj => by
        simp only [chosen, Bool.and_true, decide_eq_decide]; omega
      rw [e]
      have c1 : chosen (i + 1) none i = false := by simp [chosen]
      have c2 : chosen i none i = true := by simp [chosen]
      rw [c1, c2]
      simp only [Bool.false_eq_true, if_false, if_true, List.append_assoc, List.append_cancel_left_eq,
        List.append_cancel_right_eq, List.length_cons]
      exact ⟨Or.inr, fun h => h.resolve_left (by omega)⟩
    · have c1 : chosen (n + 1) none i = false := by simp [chosen]; omega
      have c2 : chosen n none i = false := by simp [chosen]; omega
      rw [c1, c2]
      simp only [Bool.false_eq_true, if_false, List.append_cancel_left_eq]
      rw [joinSel_next old new n (q :: ps) (i + 1) (by omega)]
      simp only [List.length_cons]
      constructor
      · rintro (h | h)
        · left; omega
        · exact Or.inr h
      · rintro (h | h)
        · left; omega
        · exact Or.inr h

/-- C13 fails for a start of 2 or more without a count unless there are fewer occurrences than that or the texts are the
same: STRTRAN("aaa", "a", "b", 2) is "aab" instead of "abb". -/
theorem C13_start_iff (s old new : Str) (ps : List Str) (hold : old ≠ []) (h : Split old s ps) (n : Nat) (hn : 2 ≤ n) :
    strtranCall s old new (some n) none = joinSel old new (chosen n none) 1 ps ↔ ps.length - 1 < n ∨ old = new := by
  have hc : strtranCall s old new (some n) none = strtran s old new n none := by
    simp only [strtranCall]
    rw [if_neg (by omega)]
  have := C13_start_off_by_one s old new ps hold h n none (by simp)
  simp only [Option.map_none] at this
  rw [hc, this, joinSel_next old new n ps 1 (by omega)]
  have : ps.length ≤ n + 1 - 1 ↔ ps.length - 1 < n := by omega
  rw [this]

example : strtranCall "aaa".toList "a".toList "b".toList (some 2) none = "aab".toList
    ∧ joinSel "a".toList "b".toList (chosen 2 none) 1 [[], [], [], []] = "abb".toList := by decide

namespace StringsAux

theorem replaceEmpty_all (new s : Str) : replaceEmpty new s none = new ++ s.flatMap (fun c => c :: new) := by
  induction s with
  | nil => simp [replaceEmpty]
  | cons c s ih => simp [replaceEmpty, ih]

end StringsAux
open StringsAux

/-- C13 does not hold when the text to be replaced is empty: FoxPro returns the text as it is, STRTRAN
here has the new text before, between and behind all characters. -/
theorem C13_empty_fails (s new : Str) :
    strtranCall s [] new none none = new ++ s.flatMap (fun c => c :: new) ∧
    (strtranCall s [] new none none = s ↔ new = []) := by
  have h : strtranCall s [] new none none = new ++ s.flatMap (fun c => c :: new) := by
    simp only [strtranCall, replaceN]
    exact replaceEmpty_all new s
  refine ⟨h, ?_⟩
  rw [h]
  constructor
  · intro e
    have hl := congrArg List.length e
    have : s.length ≤ (s.flatMap (fun c => c :: new)).length := by
      induction s with
      | nil => simp
      | cons c s _ =>
        clear e hl h
        generalize c :: s = l
        induction l with
        | nil => simp
        | cons x l ih => simp only [List.flatMap_cons, List.length_append, List.length_cons]; omega
    rw [List.length_append] at hl
    exact List.length_eq_zero_iff.mp (by omega)
  · rintro rfl
    induction s with
    | nil => rfl
    | cons c s _ =>
      clear h
      generalize c :: s = l
      induction l with
      | nil => rfl
      | cons x l ih => simpa using ih

example : strtranCall "ab".toList [] "-".toList none none = "-a-b-".toList := by decide

/-! ## C14: STUFF -/

/-- STUFF with a start of at least 1 and a count of at least 0, however large. -/
theorem C14_stuff (s r : Str) (start n : Nat) (h : 1 ≤ start) :
    stuff s start n r = s.take (start - 1) ++ r ++ s.drop (start - 1 + n) := by
  have e1 : ((start : Int) - 1) = ((start - 1 : Nat) : Int) := by omega
  have e2 : ((start : Int) - 1 + n) = ((start - 1 + n : Nat) : Int) := by omega
  unfold stuff
  rw [e2, e1]
  simp only [Py.slice, Py.clampIdx_nonneg]
  rw [List.take_of_length_le (l := List.drop (min (start - 1 + n) s.length) s) (by simp)]
  have e3 : ∀ k, s.take (min k s.length) = s.take k := by
    intro k
    rcases Nat.le_total k s.length with h | h
    · rw [Nat.min_eq_left h]
    · rw [Nat.min_eq_right h, List.take_of_length_le (Nat.le_refl _), List.take_of_length_le h]
  have e4 : ∀ k, s.drop (min k s.length) = s.drop k := by
    intro k
    rcases Nat.le_total k s.length with h | h
    · rw [Nat.min_eq_left h]
    · rw [Nat.min_eq_right h, List.drop_of_length_le (Nat.le_refl _), List.drop_of_length_le h]
  rw [e4]
  simp [e3]

example : stuff "abcdef".toList 2 3 "XY".toList = "aXYef".toList := by decide
example : stuff "ab".toList 9 3 "X".toList = "abX".toList := by decide

/-! ## C15: words -/

variable (space : Char → Bool)

/-- Every text has its words. -/
theorem C15_words_exist (delim : Char → Bool) (s : Str) : ∃ ws, Words delim s ws :=
  words_exists _ s (Nat.lt_succ_self _)

example : ∃ ws, Words (· == ',') "a,,b".toList ws := C15_words_exist _ _

/-- With no delimiter argument (white space), or a single delimiter character, GETWORDCOUNT is the
number of words and GETWORDNUM the word with that number, or empty for a negative or too large
number.  Missing: number 0, and several delimiter characters. -/
theorem C15_words_partial (s : Str) (ws : List Str) (arg : Option Str) (delim : Char → Bool)
    (harg : (arg = none ∧ delim = space) ∨ ∃ d, arg = some [d] ∧ delim = (· == d))
    (h : Words delim s ws) :
    getwordcount space s arg = some ws.length
    ∧ (∀ i : Nat, ∀ w, ws[i]? = some w → getwordnum space s (i + 1) arg = some w)
    ∧ (∀ i : Int, i < 0 ∨ ws.length < i → getwordnum space s i arg = some []) := by
  have key : getwords space s arg = some ws := by
    rcases harg with ⟨rfl, rfl⟩ | ⟨d, rfl, rfl⟩
    · simp only [getwords]; rw [splitSpace_words h]
    · simp only [getwords]
      rw [if_neg (by simp), splitFuel_words d _ s (Nat.lt_succ_self _), splitSpace_words h]
  refine ⟨by simp [getwordcount, key], ?_, ?_⟩
  · intro i w hw
    have hi : i < ws.length := by
      rw [List.getElem?_eq_some_iff] at hw; exact hw.1
    simp only [getwordnum, key]
    rw [if_pos (by constructor <;> omega)]
    have e : ((i : Int) + 1 - 1) = (i : Int) := by omega
    have e2 : ¬ ((i : Int) < 0) := by omega
    simp only [e, Py.index, e2, if_false, Int.toNat_natCast]
    exact hw
  · intro i hi
    simp only [getwordnum, key]
    rw [if_neg (by omega)]

example : Words (· == ' ') " a  bc ".toList ["a".toList, "bc".toList] :=
  .word (pre := [' ']) (w := ['a']) (rest := "  bc ".toList) (by simp) (by simp) (by simp) (by simp)
    (.word (pre := [' ', ' ']) (w := ['b', 'c']) (rest := [' ']) (by simp) (by simp) (by simp) (by simp)
      (.none (by simp)))

/-- C15 fails for the number 0: GETWORDNUM(s, 0) is the last word instead of the empty text, and raises when there are
no words. -/
theorem C15_index_zero_fails (s : Str) (ws : List Str) (arg : Option Str) (delim : Char → Bool)
    (harg : (arg = none ∧ delim = space) ∨ ∃ d, arg = some [d] ∧ delim = (· == d))
    (h : Words delim s ws) : getwordnum space s 0 arg = ws.getLast? := by
  have key : getwords space s arg = some ws := by
    rcases harg with ⟨rfl, rfl⟩ | ⟨d, rfl, rfl⟩
    · simp only [getwords]; rw [splitSpace_words h]
    · simp only [getwords]
      rw [if_neg (by simp), splitFuel_words d _ s (Nat.lt_succ_self _), splitSpace_words h]
  simp only [getwordnum, key]
  rw [if_pos (by constructor <;> omega)]
  simp only [Py.index]
  rw [if_pos (by omega)]
  cases ws with
  | nil => simp
  | cons w ws =>
    rw [List.getLast?_eq_getElem?]
    simp only [List.length_cons]
    split
    · omega
    · congr 1
      omega

example : getwordnum (· == ' ') "a b".toList 0 none = some "b".toList
    ∧ getwordnum (· == ' ') [] 0 none = none := by decide

/-- C15 fails for several delimiter characters: they are taken as one delimiter text, and a text in which this
does not occur is one word, whatever delimiters it contains. -/
theorem C15_delimiters_fails (s d : Str) (hs : s ≠ []) (hd : d ≠ []) (h : ∀ k, ¬ OccursAt d s k) :
    getwordcount space s (some d) = some 1 ∧ getwordnum space s 1 (some d) = some s := by
  have key : getwords space s (some d) = some [s] := by
    simp only [getwords, if_neg hd, splitFuel, findIdx_eq_none h]
    simp [hs]
  constructor
  · simp [getwordcount, key]
  · simp only [getwordnum, key]
    rw [if_pos (by simp)]
    rfl

example : getwordcount (· == ' ') "a,b;c".toList (some ",;".toList) = some 1 ∧
    Words (fun c => ",;".toList.contains c) "a;b".toList ["a".toList, "b".toList] := by
  refine ⟨by decide, ?_⟩
  exact .word (pre := []) (w := ['a']) (rest := ";b".toList) (by simp) (by simp) (by decide) (by simp)
    (.word (pre := [';']) (w := ['b']) (rest := []) (by decide) (by simp) (by decide) (by simp) (.none (by simp)))

/-- C15 fails for an empty text of delimiters: without delimiters a text is one word, but both functions raise an exception. -/
theorem C15_no_delimiter_fails (s : Str) (hs : s ≠ []) :
    Words (fun c => ([] : Str).contains c) s [s] ∧ getwordcount space s (some []) = none ∧ ∀ i, getwordnum space s i (some []) = none := by
  refine ⟨?_, rfl, fun i => rfl⟩
  have h := Words.word (delim := fun c => ([] : Str).contains c) (pre := []) (w := s) (rest := []) (ws := []) (by simp) hs (by simp) (by simp)
    (.none (by simp))
  simpa using h

example : getwordcount (· == ' ') "a b".toList (some []) = none ∧ Words (fun c => ([] : Str).contains c) "a b".toList ["a b".toList] :=
  ⟨(C15_no_delimiter_fails _ "a b".toList (by simp)).2.1, (C15_no_delimiter_fails (· == ' ') "a b".toList (by simp)).1⟩

/-! ## C16: STR -/

theorem fin_length (s : Str) (n : Int) :
    (if ((rjust s n).length : Int) = n then rjust s n else List.replicate n.toNat '*').length
      = n.toNat := by
  split
  · omega
  · simp

/-- Whenever STR returns, the result has the requested length, for every number (whatever its
decimal representation), length and number of decimals. -/
theorem C16_width (fixed sci : Str) (length decimals : Int) (r : Str)
    (h : strFn fixed sci length decimals = some r) : r.length = length.toNat := by
  unfold strFn at h
  simp only at h
  split at h
  · cases h; exact fin_length _ _
  · split at h
    · split at h
      · split at h
        · cases h
        · cases h; exact fin_length _ _
      · cases h; exact fin_length _ _
    · cases h; exact fin_length _ _

example : strFn "12.50".toList [] 3 2 = some "12.".toList ∨ (strFn "12.50".toList "1.250000E+01".toList 3 2).map List.length = some 3 := by decide

/-- A number that fits is returned right-aligned. -/
theorem C16_fits (fixed sci : Str) (length : Nat) (decimals : Int) (h : fixed.length ≤ length) :
    strFn fixed sci length decimals
      = some (List.replicate (length - fixed.length) ' ' ++ fixed) := by
  unfold strFn
  simp only
  rw [if_neg (by omega), if_neg (by omega)]
  have : ((rjust fixed length).length : Int) = length := by simp [rjust]; omega
  rw [if_pos this]
  simp [rjust]

example : strFn "12.50".toList [] 8 2 = some "   12.50".toList := by decide

/-- STR never raises for a number whose exponential form has no sign: a digit, a point, digits,
`E`, a sign and digits.  Missing: negative numbers. -/
theorem C16_never_raises_partial (fixed : Str) (d : Char) (ds es : Str) (sg : Char)
    (hd : d.isDigit) (hds : ∀ c ∈ ds, c.isDigit) (hne : ds ≠ []) (hsg : sg = '+' ∨ sg = '-')
    (hes : ∀ c ∈ es, c.isDigit) (hne' : es ≠ []) (length decimals : Int) :
    ∃ r, strFn fixed (d :: '.' :: (ds ++ 'E' :: sg :: es)) length decimals = some r := by
  have hE : ('E' : Char).isDigit = false := by decide
  have tw : (ds ++ 'E' :: sg :: es).takeWhile Char.isDigit = ds := by
    rw [List.takeWhile_append_of_pos hds]; simp [hE]
  have dw : (ds ++ 'E' :: sg :: es).dropWhile Char.isDigit = 'E' :: sg :: es := by
    rw [List.dropWhile_append_of_pos hds]; simp [hE]
  have tes : es.takeWhile Char.isDigit = es := by
    have := List.takeWhile_append_of_pos (p := Char.isDigit) (l₁ := es) (l₂ := []) hes
    simpa using this
  have hg : ∃ g, sciGroups (d :: '.' :: (ds ++ 'E' :: sg :: es)) = some g := by
    unfold sciGroups
    simp only
    rw [if_neg (by simp [hd]), tw, dw]
    cases ds with
    | nil => exact absurd rfl hne
    | cons x xs =>
      simp only
      rw [if_pos hsg, tes, if_neg hne']
      exact ⟨_, rfl⟩
  obtain ⟨⟨a, b, c, e⟩, hg⟩ := hg
  unfold strFn
  simp only [hg]
  split
  · exact ⟨_, rfl⟩
  · split
    · split <;> exact ⟨_, rfl⟩
    · exact ⟨_, rfl⟩

example : strFn "1234567890.00".toList "1.234568E+09".toList 6 2 = some "1.2E+9".toList := by decide

/-- C16 fails exactly for negative numbers whose digits before the point and sign do not leave room: STR raises
instead of giving asterisks.  `ip` and `fp` are the digits before and behind the point. -/
theorem C16_negative_iff (ip fp rest : Str) (hip : '.' ∉ ip) (length : Nat) :
    strFn ('-' :: ip ++ if fp = [] then [] else '.' :: fp) ('-' :: rest) length fp.length = none ↔
      if fp = [] then length ≤ ip.length else length ≤ ip.length + 1 := by
  have hg : sciGroups ('-' :: rest) = none := by
    unfold sciGroups
    split
    · rename_i d p t he
      simp only [List.cons.injEq] at he
      rw [← he.1]
      rw [if_pos (Or.inl (by decide))]
    · rfl
  have hint : ('-' :: ip ++ if fp = [] then [] else '.' :: fp).takeWhile (· ≠ '.') = '-' :: ip := by
    rw [List.takeWhile_append_of_pos (by
      intro c hc
      rcases List.mem_cons.mp hc with rfl | hc
      · decide
      · simp only [ne_eq, decide_eq_true_eq]
        rintro rfl; exact hip hc)]
    split <;> simp
  have hfl : ((('-' :: ip) ++ if fp = [] then [] else '.' :: fp).length : Int) =
      ip.length + 1 + (if fp = [] then 0 else fp.length + 1) := by
    split <;> simp; omega
  unfold strFn
  simp only [hint, hfl, hg]
  by_cases hf : fp = []
  · subst hf
    simp only [if_true, List.length_nil, List.length_cons]
    rw [if_neg (by omega)]
    by_cases hl : length ≤ ip.length
    · rw [if_pos (by omega), if_pos (by omega)]
      simp [hl]
    · rw [if_neg (by omega)]
      simp [hl]
  · simp only [if_neg hf, List.length_cons]
    have hf1 : 1 ≤ fp.length := List.length_pos_iff.mpr hf
    by_cases hl : length ≤ ip.length + 1
    · rw [if_neg (by omega), if_pos (by omega), if_pos (by omega)]
      simp [hl]
    · by_cases hl2 : length = ip.length + 2
      · rw [if_neg (by omega), if_pos (by omega), if_neg (by omega)]
        simp [hl]
      · split
        · simp [hl]
        · rw [if_neg (by omega)]
          simp [hl]

example : strFn "-123456789".toList "-1.234568E+08".toList 5 0 = none ∧
    '.' ∉ "123456789".toList ∧ strFn "-12.50".toList "-1.250000E+01".toList 3 2 = none := by decide

/-- Counting the end of a slice from the end. -/
theorem slice_neg_end (ds : Str) (k : Nat) (hk : k ≤ ds.length) (hn : k < ds.length) :
    slice ds none (some (-((ds.length - k : Nat) : Int))) = ds.take k := by
  unfold slice clampIdx
  simp only [List.drop_zero, Nat.sub_zero]
  congr 1
  split <;> omega

/-- A number that does not fit is given in exponential form: as many decimals as there is room for, and the exponent
without leading zeros.  (`ip` are the digits before the decimal point, `fp` those behind it.) -/
theorem C16_scientific (ip fp : Str) (d sg : Char) (ds zs es : Str) (k length : Nat)
    (hip : '.' ∉ ip) (hlong : length ≤ ip.length) (hover : fp ≠ [] ∨ length < ip.length)
    (hd : d.isDigit) (hds : ∀ c ∈ ds, c.isDigit) (hne : ds ≠ []) (hsg : sg = '+' ∨ sg = '-')
    (hzs : ∀ c ∈ zs, c = '0') (hes : ∀ c ∈ es, c.isDigit) (hne' : es ≠ []) (hz : es.head? ≠ some '0')
    (hk : k ≤ ds.length) (hlen : length = 4 + es.length + k) :
    strFn (ip ++ if fp = [] then [] else '.' :: fp) (d :: '.' :: (ds ++ 'E' :: sg :: (zs ++ es))) length fp.length =
      some (d :: '.' :: (ds.take k ++ 'E' :: sg :: es)) := by
  have hE : ('E' : Char).isDigit = false := by decide
  have tw : (ds ++ 'E' :: sg :: (zs ++ es)).takeWhile Char.isDigit = ds := by
    rw [List.takeWhile_append_of_pos hds]; simp [hE]
  have dw : (ds ++ 'E' :: sg :: (zs ++ es)).dropWhile Char.isDigit = 'E' :: sg :: (zs ++ es) := by
    rw [List.dropWhile_append_of_pos hds]; simp [hE]
  have hze : ∀ c ∈ zs ++ es, c.isDigit := by
    intro c hc
    rcases List.mem_append.mp hc with hc | hc
    · rw [hzs c hc]; decide
    · exact hes c hc
  have tes : (zs ++ es).takeWhile Char.isDigit = zs ++ es := by
    have := List.takeWhile_append_of_pos (p := Char.isDigit) (l₁ := zs ++ es) (l₂ := []) hze
    simpa using this
  have dz : (zs ++ es).dropWhile (fun c => decide (c = '0')) = es := by
    rw [List.dropWhile_append_of_pos (by intro c hc; simpa using hzs c hc)]
    cases es with
    | nil => exact absurd rfl hne'
    | cons x t =>
      have : x ≠ '0' := by rintro rfl; exact hz rfl
      simp [this]
  have hg : sciGroups (d :: '.' :: (ds ++ 'E' :: sg :: (zs ++ es))) = some ([d, '.'], ds, ['E', sg], es) := by
    unfold sciGroups
    simp only
    rw [if_neg (by simp [hd]), tw, dw]
    cases ds with
    | nil => exact absurd rfl hne
    | cons y u =>
      simp only
      rw [if_pos hsg, tes, if_neg (by simp [hne']), dz, if_neg hne']
  have hint : (ip ++ if fp = [] then [] else '.' :: fp).takeWhile (· ≠ '.') = ip := by
    rw [List.takeWhile_append_of_pos (by intro c hc; simp; rintro rfl; exact hip hc)]
    split <;> simp
  have hfl : ((ip ++ if fp = [] then [] else '.' :: fp).length : Int) = ip.length + (if fp = [] then 0 else fp.length + 1) := by
    split <;> simp
  unfold strFn
  simp only
  have hgt : ((ip ++ if fp = [] then [] else '.' :: fp).length : Int) > (length : Int) := by
    rw [hfl]
    by_cases hf : fp = []
    · have : length < ip.length := hover.resolve_left (by simp [hf])
      simp [hf]; omega
    · simp only [hf, if_false]; omega
  rw [if_neg (by
    rw [hfl]
    by_cases hf : fp = []
    · have : length < ip.length := hover.resolve_left (by simp [hf])
      simp [hf]; omega
    · simp only [hf, if_false]; omega), if_pos hgt, hint, if_pos (by omega), hg]
  simp only
  have hb : (if (([d, '.'].length + ds.length + ['E', sg].length + es.length : Nat) : Int) - (length : Int) > 0 then
      slice ds none (some (-((([d, '.'].length + ds.length + ['E', sg].length + es.length : Nat) : Int) - (length : Int)))) else ds) = ds.take k := by
    simp only [List.length_cons, List.length_nil]
    by_cases hke : k = ds.length
    · subst hke
      rw [if_neg (by omega), List.take_length]
    · rw [if_pos (by omega)]
      have e : (-(((0 + 1 + 1 + ds.length + (0 + 1 + 1) + es.length : Nat) : Int) - (length : Int))) = -((ds.length - k : Nat) : Int) := by omega
      rw [e]
      exact slice_neg_end ds k hk (by omega)
  rw [hb]
  have hl : ([d, '.'] ++ ds.take k ++ ['E', sg] ++ es).length = length := by
    simp [List.length_take]; omega
  have hr : rjust ([d, '.'] ++ ds.take k ++ ['E', sg] ++ es) length = [d, '.'] ++ ds.take k ++ ['E', sg] ++ es := by
    unfold rjust
    rw [hl]; simp
  rw [hr, hl, if_pos rfl]
  simp

example : strFn "123456789012.50".toList "1.234568E+11".toList 10 2 = some "1.2345E+11".toList ∧
    strFn "12345678".toList "1.234568E+07".toList 7 0 = some "1.23E+7".toList := by decide +kernel

/-! ## C17: STREXTRACT -/

/-- Every text has its enclosed pieces. -/
theorem C17_pieces_exist (b e s : Str) (hb : b ≠ []) (he : e ≠ []) : ∃ l, Between b e s l :=
  between_exists hb he _ s (Nat.lt_succ_self _)

example : ∃ l, Between "(".toList ")".toList "f(x)(y)".toList l := C17_pieces_exist _ _ _ (by decide) (by decide)

/-- In a text without line feeds, with both delimiters non-empty, compared exactly and without the
option that the end may be missing, the result is the piece with the given number, or empty when
there are fewer; `keep` returns it with its delimiters.  The delimiters may contain any
characters, also those special in regular expressions. -/
theorem C17_strextract_partial (eqs : Bool → Char → Char → Bool) (hq : eqs false = (· == ·))
    (s b e : Str) (l : List Str) (hb : b ≠ []) (he : e ≠ []) (hn : '\n' ∉ s) (h : Between b e s l)
    (occ : Nat) (keep : Bool) :
    strextract eqs s b e (occ + 1) false false keep
      = match l[occ]? with
        | some m => if keep then b ++ m ++ e else m
        | none => [] := by
  unfold strextract
  have e1 : ((occ : Int) + 1 - 1) = (occ : Int) := by omega
  have e2 : ¬ ((occ : Int) < 0) := by omega
  simp only [hq, findAll_between hb he hn h _ (Nat.lt_succ_self _), e1, Py.index, e2, if_false,
    Int.toNat_natCast, List.getElem?_map]
  cases l[occ]? with
  | none => simp
  | some m => simp

example : Between "(".toList ")".toList "f(x)(y".toList ["x".toList] := by
  refine .step (x := ['f']) (m := ['x']) (rest := "(y".toList) ?_ ?_ (.done ?_)
  · intro k hk h; have : k = 0 := by simp at hk; omega
    subst this; simp [OccursAt] at h
  · intro k hk h; have : k = 0 := by simp at hk; omega
    subst this; simp [OccursAt] at h
  · rintro ⟨x, m, rest, h⟩
    have : ')' ∈ "(y".toList := by rw [h]; simp
    simp at this

def exactOnly : Bool → Char → Char → Bool := fun _ => (· == ·)

theorem findAll_no_start {c : Char} {e : Str} : ∀ (n : Nat) (s : Str), c ∉ s → findAll (· == ·) [c] e n s = []
  | 0, _, _ => rfl
  | n + 1, [], _ => by simp [findAll, extractHere, startsWith]
  | n + 1, d :: s, h => by
    have hne : (c == d) = false := by
      simp only [beq_eq_false_iff_ne, ne_eq]
      rintro rfl; exact h (by simp)
    simp only [findAll, extractHere, startsWith, hne, Bool.false_and, Bool.false_eq_true, if_false]
    exact findAll_no_start n s fun hm => h (by simp [hm])

theorem lazyUpTo_lf {d : Char} : ∀ (m rest : Str), d ∉ m → '\n' ∈ m → lazyUpTo (· == ·) [d] (m ++ rest) = none
  | [], _, _, h => by simp at h
  | x :: m, rest, h1, h2 => by
    have hne : (d == x) = false := by
      simp only [beq_eq_false_iff_ne, ne_eq]
      rintro rfl; exact h1 (by simp)
    simp only [List.cons_append, lazyUpTo, startsWith, hne, Bool.false_and, Bool.false_eq_true, if_false]
    by_cases hx : x = '\n'
    · rw [if_pos hx]
    · rw [if_neg hx, lazyUpTo_lf m rest (fun hm => h1 (by simp [hm])) (by simpa [Ne.symm hx] using h2)]
      rfl

/-- C17 fails for pieces that span lines, which are not found: between two delimiters of one character, which do not
occur in it. -/
theorem C17_lines_fails (eqs : Bool → Char → Char → Bool) (hq : eqs false = (· == ·)) (b e : Char) (m : Str) (hbe : b ≠ e)
    (hb : b ∉ m) (he : e ∉ m) (hm : '\n' ∈ m) (keep : Bool) :
    Between [b] [e] ([b] ++ m ++ [e]) [m] ∧ strextract eqs ([b] ++ m ++ [e]) [b] [e] 1 false false keep = [] := by
  constructor
  · have hr : Between [b] [e] [] [] := .done (by
      rintro ⟨x, y, z, h⟩
      have := congrArg List.length h
      simp at this)
    have := Between.step (b := [b]) (e := [e]) (x := []) (m := m) (rest := []) (by simp) (by
      rintro k hk ⟨t, ht⟩
      have : (m ++ [e] ++ [])[k]? = some e := by
        rw [← List.head?_drop, ht]
        rfl
      rw [List.append_nil, List.getElem?_append_left hk] at this
      exact he (List.mem_of_getElem? this)) hr
    simpa using this
  · have hs : findAll (· == ·) [b] [e] (([b] ++ m ++ [e]).length + 1) ([b] ++ m ++ [e]) = [] := by
      have hx : extractHere (· == ·) [b] [e] ([b] ++ m ++ [e]) = none := by
        simp [extractHere, startsWith, lazyUpTo_lf m [e] he hm]
      simp only [List.cons_append, List.nil_append] at hx ⊢
      rw [findAll, hx]
      refine findAll_no_start _ _ ?_
      simp only [List.mem_append, List.mem_singleton, not_or]
      exact ⟨hb, hbe⟩
    unfold strextract
    rw [hq, hs]
    simp [Py.index]

example : strextract exactOnly "<a\nb>".toList "<".toList ">".toList 1 false false false = [] := by decide

/-- The characters that have a meaning in regular expressions, and white space. -/
def StringsSpec.marks : List Char :=
  ['(', ')', '[', ']', '{', '}', '?', '*', '+', '-', '|', '^', '$', '\\', '.', '&', '~', '#', ' ', '\t', '\n', '\r', '\x0b', '\x0c']

theorem StringsAux.marks_eq : StringsSpec.marks = special := rfl

/-- C17: when the end may be missing, the rest of the line behind an opening delimiter of one character is found
exactly if that character has no meaning in regular expressions; otherwise the result is empty. -/
theorem C17_missing_end_iff (eqs : Bool → Char → Char → Bool) (hq : eqs false = (· == ·)) (b e : Char) (m : Str)
    (hne : m ≠ []) (hb : b ∉ m) (he : e ∉ m) (hm : '\n' ∉ m) (hbs : '\\' ∉ m) :
    strextract eqs (b :: m) [b] [e] 1 false true false = m ↔ b ∉ StringsSpec.marks := by
  rw [StringsAux.marks_eq]
  have h0 : findAll (· == ·) [b] [e] ((b :: m).length + 1) (b :: m) = [] := by
    have hx : extractHere (· == ·) [b] [e] (b :: m) = none := by
      have hl : lazyUpTo (· == ·) [e] m = none := by
        clear hne hb hm hbs
        induction m with
        | nil => simp [lazyUpTo, startsWith]
        | cons x m ih =>
          have hx : (e == x) = false := by
            simp only [beq_eq_false_iff_ne, ne_eq]
            rintro rfl; exact he (by simp)
          simp only [lazyUpTo, startsWith, hx, Bool.false_and, Bool.false_eq_true, if_false,
            ih fun h => he (by simp [h])]
          simp
      simp [extractHere, startsWith, hl]
    rw [findAll, hx]
    exact findAll_no_start _ _ hb
  unfold strextract
  rw [hq, h0]
  by_cases hsp : b ∈ special
  · have hes : escape [b] = ['\\', b] := by simp [escape, hsp]
    have h1 : findAll (· == ·) ['\\', b] [] ((b :: m).length + 1) (b :: m) = [] := by
      have gen : ∀ (n : Nat) (s : Str), '\\' ∉ s → findAll (· == ·) ['\\', b] [] n s = [] := by
        intro n
        induction n with
        | zero => intro s _; rfl
        | succ n ih =>
          intro s h
          cases s with
          | nil => simp [findAll, extractHere, startsWith]
          | cons d s =>
            have hd : ('\\' == d) = false := by
              simp only [beq_eq_false_iff_ne, ne_eq]
              rintro rfl; exact h (by simp)
            simp only [findAll, extractHere, startsWith, hd, Bool.false_and, Bool.false_eq_true, if_false]
            exact ih s fun hm => h (by simp [hm])
      by_cases hbb : b = '\\'
      · subst hbb
        have hx : extractHere (· == ·) ['\\', '\\'] [] ('\\' :: m) = none := by
          cases m with
          | nil => exact absurd rfl hne
          | cons d m =>
            have hd : ('\\' == d) = false := by
              simp only [beq_eq_false_iff_ne, ne_eq]
              rintro rfl; exact hbs (by simp)
            simp [extractHere, startsWith, hd]
        rw [findAll, hx]
        exact gen _ _ hbs
      · exact gen _ _ (by simp only [List.mem_cons, not_or]; exact ⟨fun h => hbb h.symm, hbs⟩)
    rw [hes, h1]
    simp only [hsp, not_true_eq_false, iff_false]
    simp [Py.index]
    exact hne
  · have hes : escape [b] = [b] := by simp [escape, hsp]
    have htw : m.takeWhile (· ≠ '\n') = m := by
      have := List.takeWhile_append_of_pos (p := fun c : Char => decide (c ≠ '\n')) (l₁ := m) (l₂ := []) (by
        intro c hc
        simp only [ne_eq, decide_eq_true_eq]
        rintro rfl; exact hm hc)
      simpa using this
    have h1 : extractHere (· == ·) [b] [] (b :: m) = some (m, 1 + m.length) := by
      simp only [extractHere, startsWith, beq_self_eq_true, Bool.and_self, if_true, List.length_cons, List.length_nil,
        List.drop_succ_cons, List.drop_zero, htw]
    rw [hes, findAll, h1]
    simp [Py.index, hsp]

example : strextract exactOnly "(a".toList "(".toList ")".toList 1 false true false = []
    ∧ strextract exactOnly "<a".toList "<".toList ">".toList 1 false true false = "a".toList
    ∧ '(' ∈ StringsSpec.marks ∧ '<' ∉ StringsSpec.marks := by decide

/-- C17 fails without an end delimiter: no second occurrence is found in a text of one line. -/
theorem C17_no_end_fails (eqs : Bool → Char → Char → Bool) (s b : Str) (hb : b ≠ []) (hs : '\n' ∉ s) (occ : Nat)
    (ci endOptional keep : Bool) :
    strextract eqs s b [] (occ + 2) ci endOptional keep = [] := by
  have nil : ∀ n, findAll (eqs ci) b [] n [] = [] := by
    intro n
    cases n with
    | zero => rfl
    | succ n =>
      cases b with
      | nil => exact absurd rfl hb
      | cons x b => simp [findAll, extractHere, startsWith]
  have key : ∀ n (s : Str), '\n' ∉ s → (findAll (eqs ci) b [] n s).length ≤ 1 := by
    intro n
    induction n with
    | zero => intro s _; simp [findAll]
    | succ n ih =>
      intro s hs
      rw [findAll.eq_def]
      simp only
      split
      · rename_i m k hx
        simp only [extractHere] at hx
        split at hx
        · simp only [if_true, Option.some.injEq, Prod.mk.injEq] at hx
          have htw : (s.drop b.length).takeWhile (· ≠ '\n') = s.drop b.length := by
            have := List.takeWhile_append_of_pos (p := fun c : Char => decide (c ≠ '\n')) (l₁ := s.drop b.length) (l₂ := []) (by
              intro c hc
              simp only [ne_eq, decide_eq_true_eq]
              rintro rfl; exact hs (List.mem_of_mem_drop hc))
            simpa using this
          have hk : s.drop k = [] := by
            rw [← hx.2, htw]
            apply List.drop_eq_nil_of_le
            simp only [List.length_drop]
            omega
          rw [hk, nil]
          simp
        · cases hx
      · split
        · simp
        · exact ih _ fun h => hs (by simp [h])
  have hl := key (s.length + 1) s hs
  have hn : Py.index (findAll (eqs ci) b [] (s.length + 1) s) ((occ : Int) + 2 - 1) = none := by
    have e : (occ : Int) + 2 - 1 = ((occ + 1 : Nat) : Int) := by omega
    rw [e]
    simp only [Py.index]
    rw [if_neg (by omega), Int.toNat_natCast]
    exact List.getElem?_eq_none (by omega)
  unfold strextract
  simp only [hn, Option.map_none]
  simp

example : strextract exactOnly "a-b-c".toList "-".toList [] 2 false false false = [] ∧
    strextract exactOnly "a-b-c".toList "-".toList [] 1 false false false = "b-c".toList := by decide

/-! ## C18: LIKE -/

/-- For a pattern without other regular-expression characters and a text without line feeds,
LIKE is true exactly when some prefix of the text matches.  Missing: the whole text should have to
match. -/
theorem C18_prefix_partial (p s : Str) (_hp : ∀ c ∈ p, c ∉ patternSpecial) (hs : '\n' ∉ s) :
    like p s = true ↔ ∃ a b, s = a ++ b ∧ Wild p a :=
  like_iff p s hs

example : (∀ c ∈ "a?c".toList, c ∉ patternSpecial) ∧ like "a?c".toList "abcde".toList = true ∧ like "a?c".toList "acb".toList = false := by decide

/-- Hence it is right for patterns that end in `*`. -/
theorem C18_star_partial (p s : Str) (_hp : ∀ c ∈ p, c ∉ patternSpecial) (hs : '\n' ∉ s) :
    like (p ++ ['*']) s = true ↔ Wild (p ++ ['*']) s := by
  rw [like_iff _ _ hs]
  have grow : ∀ (q a : Str), Wild q a → ∀ p' b, q = p' ++ ['*'] → Wild (p' ++ ['*']) (a ++ b) := by
    intro q a h
    induction h with
    | nil => intro p' b hq; simp at hq
    | @star p1 s1 t1 h ih =>
      intro p' b hq
      cases p' with
      | nil =>
        simp at hq; subst hq
        have := Wild.star (p := []) (s := s1 ++ t1 ++ b) (t := []) .nil
        simpa using this
      | cons c p' =>
        simp at hq
        obtain ⟨rfl, rfl⟩ := hq
        have := Wild.star (s := s1) (ih p' b rfl)
        simpa using this
    | @one p1 s1 c h ih =>
      intro p' b hq
      cases p' with
      | nil => simp at hq
      | cons d p' =>
        simp at hq
        obtain ⟨rfl, rfl⟩ := hq
        exact Wild.one c (ih p' b rfl)
    | @lit p1 s1 c h1 h2 h ih =>
      intro p' b hq
      cases p' with
      | nil => simp at hq; exact absurd hq.1 h1
      | cons d p' =>
        simp at hq
        obtain ⟨rfl, rfl⟩ := hq
        exact Wild.lit c h1 h2 (ih p' b rfl)
  constructor
  · rintro ⟨a, b, rfl, hw⟩
    exact grow _ _ hw p b rfl
  · intro hw
    exact ⟨s, [], by simp, hw⟩

example : like "a?c*".toList "abcde".toList = true := by decide
example : Wild "a?c*".toList "abcde".toList :=
  .lit 'a' (by decide) (by decide) (.one 'b' (.lit 'c' (by decide) (by decide)
    (.star (s := "de".toList) (t := []) .nil)))

/-- LIKE("a", "ab") is true here: a text with a matching beginning is accepted. -/
theorem C18_whole_fails (p s t : Str) (hw : Wild p s) (hs : '\n' ∉ s ++ t) : like p (s ++ t) = true :=
  (like_iff p (s ++ t) hs).mpr ⟨s, t, rfl, hw⟩

example : like "a".toList "ab".toList = true ∧ ¬ Wild "a".toList "ab".toList := by
  refine ⟨by decide, ?_⟩
  intro h
  cases h with
  | lit c h1 h2 h => cases h

/-! ## C62: ATLINE and RATLINE -/

/-- Where the text is found (its first character not being a line end), ATLINE is one more than
the number of line ends before its first occurrence.  Missing: 0 when it does not occur. -/
theorem C62_atline_partial (search s : Str) (k : Nat) (hk : OccursAt search s k)
    (hfirst : ∀ j, j < k → ¬ OccursAt search s j) (c : Char) (hc : search.head? = some c)
    (hcr : c ≠ '\r') :
    atline search s = (s.take k).count '\r' + 1 := by
  have hf := findIdx_eq hk hfirst
  obtain ⟨t, ht⟩ := hk
  cases search with
  | nil => simp at hc
  | cons x xs =>
    simp at hc; subst hc
    have hlt : k < s.length := by
      apply Classical.byContradiction; intro hk
      rw [List.drop_of_length_le (by omega)] at ht
      simp at ht
    have hx : s[k] = x := by
      rw [List.drop_eq_getElem_cons hlt] at ht
      exact (List.cons.inj ht).1
    unfold atline find
    rw [hf]
    have e : ((k : Int) + 1) = ((k + 1 : Nat) : Int) := by omega
    simp only [e, Py.slice, Py.clampIdx_nonneg]
    rw [Nat.min_eq_left (by omega), List.drop_zero, Nat.sub_zero, List.take_succ_eq_append_getElem hlt,
      List.count_append, hx]
    simp [hcr]

example : atline "b".toList "a\rab".toList = 2 := by decide

theorem rfindIdx_eq {s search : Str} (hne : search ≠ []) {k : Nat} (hk : OccursAt search s k)
    (hlast : ∀ j, k < j → ¬ OccursAt search s j) : rfindIdx s search = some k := by
  induction s generalizing k with
  | nil =>
    obtain ⟨t, ht⟩ := hk
    simp at ht
    exact absurd ht.1 hne
  | cons c cs ih =>
    cases k with
    | zero =>
      have hn : rfindIdx cs search = none := by
        have hno : ∀ j, ¬ OccursAt search cs j := fun j ⟨t, ht⟩ => hlast (j + 1) (by omega) ⟨t, by simpa using ht⟩
        clear ih hk hlast
        induction cs with
        | nil => simp [rfindIdx, hne]
        | cons d ds ih2 =>
          have h1 : rfindIdx ds search = none :=
            ih2 (fun j ⟨t, ht⟩ => hno (j + 1) ⟨t, by simpa using ht⟩)
          have h2 : search.isPrefixOf (d :: ds) = false := by
            cases h : search.isPrefixOf (d :: ds) with
            | false => rfl
            | true =>
              obtain ⟨t, ht⟩ := List.isPrefixOf_iff_prefix.mp h
              exact absurd ⟨t, by simpa using ht.symm⟩ (hno 0)
          simp [rfindIdx, h1, h2]
      have hp : search.isPrefixOf (c :: cs) = true := by
        obtain ⟨t, ht⟩ := hk
        exact List.isPrefixOf_iff_prefix.mpr ⟨t, by simpa using ht.symm⟩
      simp [rfindIdx, hn, hp]
    | succ k =>
      have : rfindIdx cs search = some k := by
        apply ih
        · obtain ⟨t, ht⟩ := hk; exact ⟨t, by simpa using ht⟩
        · intro j hj ⟨t, ht⟩; exact hlast (j + 1) (by omega) ⟨t, by simpa using ht⟩
      simp [rfindIdx, this]

/-- RATLINE likewise with the last occurrence. -/
theorem C62_ratline_partial (search s : Str) (k : Nat) (hk : OccursAt search s k)
    (hlast : ∀ j, k < j → ¬ OccursAt search s j) (c : Char) (hc : search.head? = some c)
    (hcr : c ≠ '\r') :
    ratline search s = (s.take k).count '\r' + 1 := by
  have hne : search ≠ [] := by rintro rfl; simp at hc
  have hf := rfindIdx_eq hne hk hlast
  obtain ⟨t, ht⟩ := hk
  cases search with
  | nil => simp at hc
  | cons x xs =>
    simp at hc; subst hc
    have hlt : k < s.length := by
      apply Classical.byContradiction; intro hk
      rw [List.drop_of_length_le (by omega)] at ht
      simp at ht
    have hx : s[k] = x := by
      rw [List.drop_eq_getElem_cons hlt] at ht
      exact (List.cons.inj ht).1
    unfold ratline
    rw [hf]
    have e : ((k : Int) + 1) = ((k + 1 : Nat) : Int) := by omega
    simp only [e, Py.slice, Py.clampIdx_nonneg]
    rw [Nat.min_eq_left (by omega), List.drop_zero, Nat.sub_zero, List.take_succ_eq_append_getElem hlt,
      List.count_append, hx]
    simp [hcr]

example : ratline "b".toList "ab\rab\ra".toList = 2 := by decide

/-- A text that does not occur is reported in line 1. -/
theorem C62_absent_fails (search s : Str) (h : ∀ k, ¬ OccursAt search s k) :
    atline search s = 1 := by
  unfold atline find
  rw [findIdx_eq_none h]
  simp [Py.slice, Py.clampIdx]

example : atline "x".toList "a\rb".toList = 1 := by decide

end Props
