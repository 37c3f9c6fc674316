import Verif.Model.TextBlock
/-!
# TEXT ... ENDTEXT (C107)
-/
namespace Props.TextBlockSpec

abbrev Str := List Char

/-- The lines one below the other. -/
def below : List Str → Str
  | [] => []
  | [l] => l
  | l :: ls => l ++ '\r' :: '\n' :: below ls

/-- The text that the lines between TEXT and ENDTEXT are; it is left open whether the last line has
a line end. -/
def IsText (lines : List Str) (t : Str) : Prop :=
  t = below lines ∨ (lines ≠ [] ∧ t = below lines ++ ['\r', '\n'])

/-- A blank or a control character like it. -/
def blank (c : Char) : Bool :=
  (9 ≤ c.toNat && c.toNat ≤ 13) || (28 ≤ c.toNat && c.toNat ≤ 32) || c.toNat = 133 || c.toNat = 160

/-- A line of a source file. -/
def IsLine (l : Str) : Prop :=
  ∀ c ∈ l, ¬ (10 ≤ c.toNat ∧ c.toNat ≤ 13) ∧ ¬ (28 ≤ c.toNat ∧ c.toNat ≤ 30) ∧ c.toNat ≠ 133

/-- No blanks at the ends. -/
def Trimmed (l : Str) : Prop := (∀ c, l.head? = some c → blank c = false) ∧ ∀ c, l.getLast? = some c → blank c = false

/-- The source between TEXT and ENDTEXT: the lines, and the blanks before ENDTEXT. -/
def source (lines : List Str) (indent : Str) : Str := (lines.map (· ++ ['\n'])).flatten ++ indent

end Props.TextBlockSpec

namespace Props.TextBlockAux
open Model.TextBlock hiding Str
open PyVal Props.TextBlockSpec

theorem blank_eq : blank = isSpace := rfl

theorem not_break {l : Str} (h : IsLine l) : ∀ c ∈ l, isBreak c = false := by
  intro c hc
  have := h c hc
  simp only [isBreak, Bool.or_eq_false_iff, Bool.and_eq_false_iff, decide_eq_false_iff_not]
  omega

theorem split_line {l : Str} (h : IsLine l) (cur s : Str) :
    splitFrom cur (l ++ s) = splitFrom (cur ++ l) s := by
  induction l generalizing cur with
  | nil => simp
  | cons c l ih =>
    rw [List.cons_append, splitFrom, not_break h c (by simp)]
    simp only [Bool.false_eq_true, if_false]
    rw [ih (fun d hd => h d (by simp [hd]))]
    simp

theorem split_source {lines : List Str} (h : ∀ l ∈ lines, IsLine l) {indent : Str} (hi : IsLine indent) :
    textChunk (source lines indent) = lines ++ (if indent = [] then [] else [indent]) := by
  unfold textChunk source
  induction lines with
  | nil =>
    have := split_line hi [] []
    simpa [splitFrom] using this
  | cons l lines ih =>
    have hb : isBreak '\n' = true := by decide
    rw [List.map_cons, List.flatten_cons, List.append_assoc, List.append_assoc, split_line (h l (by simp)),
      List.nil_append, List.cons_append, List.nil_append, splitFrom, hb, if_pos rfl,
      ih (fun l' hl => h l' (by simp [hl]))]
    rfl

theorem dropWhile_blanks {s : Str} (h : s.all isSpace = true) : s.dropWhile isSpace = [] := by
  induction s with
  | nil => rfl
  | cons c s ih =>
    rw [List.all_cons, Bool.and_eq_true] at h
    rw [List.dropWhile_cons, h.1, if_pos rfl, ih h.2]

theorem strip_blanks {s : Str} (h : s.all isSpace = true) : strip s = [] := by
  simp [strip, lstrip, rstrip, dropWhile_blanks h]

theorem joined_source {lines : List Str} (h : ∀ l ∈ lines, IsLine l) {indent : Str} (hi : IsLine indent)
    (hb : indent.all isSpace = true) : joined (textChunk (source lines indent)) = (lines.map strip).flatten := by
  rw [split_source h hi, joined]
  split
  · simp
  · simp [strip_blanks hb]

theorem dropWhile_id {s : Str} (h : ∀ c, s.head? = some c → isSpace c = false) : s.dropWhile isSpace = s := by
  cases s with
  | nil => rfl
  | cons c s => rw [List.dropWhile_cons, h c rfl]; rfl

theorem dropWhile_le (s : Str) : (s.dropWhile isSpace).length ≤ s.length :=
  (List.dropWhile_sublist (l := s) isSpace).length_le

theorem strip_le (s : Str) : (strip s).length ≤ s.length := by
  have h1 := dropWhile_le s
  have h2 := dropWhile_le (s.dropWhile isSpace).reverse
  simp only [strip, lstrip, rstrip, List.length_reverse] at h2 ⊢
  omega

theorem dropWhile_eq {s : Str} (h : s.dropWhile isSpace = s) : ∀ c, s.head? = some c → isSpace c = false := by
  intro c hc
  cases s with
  | nil => simp at hc
  | cons d s =>
    simp only [List.head?_cons, Option.some.injEq] at hc
    subst hc
    cases hd : isSpace d with
    | false => rfl
    | true =>
      rw [List.dropWhile_cons, hd] at h
      have := dropWhile_le s
      have h2 := congrArg List.length h
      simp only [if_true, List.length_cons] at h2
      omega

/-- `strip` keeps exactly the trimmed texts. -/
theorem strip_eq {s : Str} : strip s = s ↔ Trimmed s := by
  constructor
  · intro h
    have h1 : s.dropWhile isSpace = s := by
      have hl := congrArg List.length h
      have h2 := dropWhile_le s
      have h3 := dropWhile_le (s.dropWhile isSpace).reverse
      simp only [strip, lstrip, rstrip, List.length_reverse] at hl h3
      exact List.Sublist.eq_of_length (List.dropWhile_sublist (l := s) isSpace) (by omega)
    refine ⟨dropWhile_eq h1, ?_⟩
    have h2 : s.reverse.dropWhile isSpace = s.reverse := by
      have := congrArg List.reverse h
      simpa only [strip, lstrip, rstrip, h1, List.reverse_reverse] using this
    intro c hc
    exact dropWhile_eq h2 c (by simpa using hc)
  · rintro ⟨h1, h2⟩
    have e1 : s.dropWhile isSpace = s := dropWhile_id h1
    have e2 : s.reverse.dropWhile isSpace = s.reverse := dropWhile_id (by rw [← blank_eq]; simpa using h2)
    simp [strip, lstrip, rstrip, e1, e2]

theorem filter_dropWhile (s : Str) : (s.dropWhile isSpace).filter (fun c => !isSpace c) = s.filter (fun c => !isSpace c) := by
  induction s with
  | nil => rfl
  | cons c s ih =>
    rw [List.dropWhile_cons]
    cases h : isSpace c
    · simp
    · simp [ih, h]

theorem filter_strip (s : Str) : (strip s).filter (fun c => !isSpace c) = s.filter (fun c => !isSpace c) := by
  simp only [strip, lstrip, rstrip, List.filter_reverse, filter_dropWhile, List.reverse_reverse]

theorem filter_flatten (lines : List Str) :
    ((lines.map strip).flatten).filter (fun c => !isSpace c) = lines.flatten.filter (fun c => !isSpace c) := by
  induction lines with
  | nil => rfl
  | cons l lines ih =>
    rw [List.map_cons, List.flatten_cons, List.flatten_cons, List.filter_append, List.filter_append, ih, filter_strip]

theorem flatten_le (lines : List Str) : ((lines.map strip).flatten).length ≤ lines.flatten.length := by
  induction lines with
  | nil => simp
  | cons l lines ih =>
    have := strip_le l
    simp only [List.map_cons, List.flatten_cons, List.length_append]
    omega

theorem below_length : ∀ lines : List Str, (below lines).length = lines.flatten.length + 2 * (lines.length - 1)
  | [] => rfl
  | [l] => by simp [below]
  | l :: l' :: ls => by
    have := below_length (l' :: ls)
    simp only [below, List.length_append, List.length_cons, List.flatten_cons] at this ⊢
    omega

theorem mem_strip {c : Char} {s : Str} (h : c ∈ strip s) : c ∈ s := by
  simp only [strip, lstrip, rstrip, List.mem_reverse] at h
  have h1 := (List.dropWhile_sublist isSpace).subset h
  rw [List.mem_reverse] at h1
  exact (List.dropWhile_sublist isSpace).subset h1

end Props.TextBlockAux

namespace Props
open Model.TextBlock hiding Str
open PyVal Props.TextBlockSpec Props.TextBlockAux

/-- C107 (exact extent): the text assigned and shown is the text between TEXT and ENDTEXT exactly
when there is at most one line and it does not begin or end with blanks. -/
theorem C107_text_iff {lines : List Str} (h : ∀ l ∈ lines, IsLine l) {indent : Str} (hi : IsLine indent)
    (hb : indent.all blank = true) (old : Str) :
    ∃ t, textBlock { to_ := true } (source lines indent) old = ⟨some t, some t⟩ ∧
      (IsText lines t ↔ lines.length ≤ 1 ∧ ∀ l ∈ lines, Trimmed l) := by
  refine ⟨(lines.map strip).flatten, ?_, ?_⟩
  · simp only [textBlock, joined_source h hi hb]
    rfl
  · have hle := flatten_le lines
    constructor
    · intro ht
      have hbl := below_length lines
      have hlen : lines.length ≤ 1 := by
        rcases ht with ht | ⟨_, ht⟩
        · have := congrArg List.length ht
          omega
        · have := congrArg List.length ht
          simp only [List.length_append, List.length_cons, List.length_nil] at this
          omega
      refine ⟨hlen, fun l hl => ?_⟩
      match lines, hlen with
      | [], _ => simp at hl
      | [k], _ =>
        simp only [List.mem_cons, List.not_mem_nil, or_false] at hl
        subst hl
        rcases ht with ht | ⟨_, ht⟩
        · exact strip_eq.mp (by simpa [below] using ht)
        · have := congrArg List.length ht
          have h2 := strip_le l
          simp [below] at this
          omega
    · rintro ⟨hlen, ht⟩
      left
      match lines, hlen with
      | [], _ => rfl
      | [k], _ =>
        have := strip_eq.mpr (ht k (by simp))
        simp [below, this]

example : ∃ t, textBlock { to_ := true } (source ["a b".toList] "  ".toList) [] = ⟨some t, some t⟩ ∧
    IsText ["a b".toList] t := by
  obtain ⟨t, h1, h2⟩ := C107_text_iff (lines := ["a b".toList]) (indent := "  ".toList)
    (by intro l hl; simp at hl; subst hl; intro c hc; revert c; decide +kernel)
    (by intro c hc; revert c; decide +kernel) (by decide +kernel) []
  refine ⟨t, h1, h2.mpr ⟨by simp, ?_⟩⟩
  intro l hl
  simp at hl
  subst hl
  constructor <;> intro c hc <;> simp at hc <;> subst hc <;> decide +kernel

/-- The control characters that Python takes for ends of lines and FoxPro does not. -/
def TextBlockSpec.Control (c : Char) : Prop := c.toNat ∈ [11, 12, 28, 29, 30, 133]

/-- C107 fails for control characters within a line: they are lost. -/
theorem C107_control_fails {a b : Str} (ha : IsLine a) (hb : IsLine b) (ta : Trimmed a) (tb : Trimmed b) {c : Char}
    (hc : TextBlockSpec.Control c) (old : Str) :
    textBlock { to_ := true } (source [a ++ c :: b] []) old = ⟨some (a ++ b), some (a ++ b)⟩ ∧ ¬ IsText [a ++ c :: b] (a ++ b) := by
  have hbr : isBreak c = true := by
    simp only [TextBlockSpec.Control, List.mem_cons, List.not_mem_nil, or_false] at hc
    simp only [isBreak, Bool.or_eq_true, Bool.and_eq_true, decide_eq_true_eq]
    omega
  have hs : textChunk (source [a ++ c :: b] []) = [a, b] := by
    have e : source [a ++ c :: b] [] = a ++ c :: (b ++ ['\n']) := by simp [source]
    unfold textChunk
    rw [e, split_line ha, List.nil_append, splitFrom, hbr, if_pos rfl, split_line hb, List.nil_append, splitFrom,
      show isBreak '\n' = true by decide, if_pos rfl]
    rfl
  constructor
  · simp only [textBlock, hs, joined, List.map_cons, List.map_nil, strip_eq.mpr ta, strip_eq.mpr tb]
    simp
  · rintro (h | ⟨_, h⟩)
    · have := congrArg List.length h; simp [below] at this
    · have := congrArg List.length h; simp [below] at this; omega

example : textBlock { to_ := true } (source ["a\x0cb".toList] []) [] = ⟨some "ab".toList, some "ab".toList⟩ := by decide +kernel

/-- C107 (partial): whatever the lines are, no other characters than blanks and line ends are lost,
none are added, and they stay in order. -/
theorem C107_characters_partial {lines : List Str} (h : ∀ l ∈ lines, IsLine l) {indent : Str} (hi : IsLine indent)
    (hb : indent.all blank = true) (c : Clauses) (hc : c.to_ = true) (old : Str) :
    ∃ t, (textBlock c (source lines indent) old).assigned = some t ∧
      t.filter (fun x => !blank x) = lines.flatten.filter (fun x => !blank x) ∧
      t.Sublist lines.flatten := by
  refine ⟨(lines.map strip).flatten, ?_, filter_flatten lines, ?_⟩
  · simp only [textBlock, joined_source h hi hb, hc, if_true]
  · clear h
    induction lines with
    | nil => exact .slnil
    | cons l lines ih =>
      rw [List.map_cons, List.flatten_cons, List.flatten_cons]
      refine List.Sublist.append ?_ ih
      simp only [strip, lstrip, rstrip]
      have h1 := (List.dropWhile_sublist (l := (l.dropWhile isSpace).reverse) isSpace).reverse
      rw [List.reverse_reverse] at h1
      exact h1.trans (List.dropWhile_sublist isSpace)

example : ∃ t, (textBlock { to_ := true } (source ["  a b".toList, "c".toList] []) []).assigned = some t ∧
    t.filter (fun x => !blank x) = "abc".toList := by
  obtain ⟨t, h1, h2, _⟩ := C107_characters_partial (lines := ["  a b".toList, "c".toList]) (indent := [])
    (by
      intro l hl
      simp at hl
      rcases hl with rfl | rfl <;> intro c hc <;> revert c <;> decide +kernel)
    (by intro c hc; simp at hc) rfl { to_ := true } rfl []
  exact ⟨t, h1, h2.trans (by decide +kernel)⟩

/-- C107: the value never has a line end, so however many lines there are, it is one line; the words
at the ends of two lines run together. -/
theorem C107_line_ends_fail {lines : List Str} (h : ∀ l ∈ lines, IsLine l) {indent : Str} (hi : IsLine indent)
    (hb : indent.all blank = true) (c : Clauses) (hc : c.to_ = true) (old : Str) :
    ∃ t, (textBlock c (source lines indent) old).assigned = some t ∧ '\n' ∉ t ∧ '\r' ∉ t ∧
      ∀ a b, lines = [a, b] → Trimmed a → Trimmed b → t = a ++ b := by
  refine ⟨(lines.map strip).flatten, ?_, ?_, ?_, ?_⟩
  · simp only [textBlock, joined_source h hi hb, hc, if_true]
  · intro hm
    obtain ⟨s, hs, hn⟩ := List.mem_flatten.mp hm
    obtain ⟨l, hl, rfl⟩ := List.mem_map.mp hs
    exact absurd (h l hl '\n' (mem_strip hn)).1 (by decide)
  · intro hm
    obtain ⟨s, hs, hn⟩ := List.mem_flatten.mp hm
    obtain ⟨l, hl, rfl⟩ := List.mem_map.mp hs
    exact absurd (h l hl '\r' (mem_strip hn)).1 (by decide)
  · intro a b hl ha hb'
    subst hl
    simp [strip_eq.mpr ha, strip_eq.mpr hb']

example : ∃ t, (textBlock { to_ := true } (source ["one".toList, "two".toList] []) []).assigned = some t ∧
    '\n' ∉ t := by
  obtain ⟨t, h1, h2, _⟩ := C107_line_ends_fail (lines := ["one".toList, "two".toList]) (indent := [])
    (by
      intro l hl
      simp at hl
      rcases hl with rfl | rfl <;> intro c hc <;> revert c <;> decide +kernel)
    (by intro c hc; simp at hc) rfl { to_ := true } rfl []
  exact ⟨t, h1, h2⟩

/-- C107: ADDITIVE, TEXTMERGE, FLAGS and PRETEXT have no effect; with ADDITIVE the old value is lost.
NOSHOW is obeyed and only the variable after TO is assigned. -/
theorem C107_clauses_fail (c : Clauses) (chunk old : Str) :
    textBlock c chunk old = textBlock { to_ := c.to_, noshow := c.noshow } chunk [] ∧
    ((textBlock c chunk old).printed = none ↔ c.noshow = true) ∧
    ((textBlock c chunk old).assigned = none ↔ c.to_ = false) ∧
    (∀ t, old ≠ [] → (textBlock { c with additive := false } chunk []).assigned = some t →
      (textBlock { c with additive := true } chunk old).assigned ≠ some (old ++ t)) := by
  refine ⟨rfl, ?_, ?_, ?_⟩
  · cases hn : c.noshow <;> simp [textBlock, hn]
  · cases hn : c.to_ <;> simp [textBlock, hn]
  · intro t ho h1 h2
    have : (textBlock { c with additive := true } chunk old).assigned =
      (textBlock { c with additive := false } chunk []).assigned := rfl
    rw [this, h1] at h2
    have := congrArg List.length (Option.some.inj h2)
    simp only [List.length_append] at this
    exact ho (List.length_eq_zero_iff.mp (by omega))

example : (textBlock { to_ := true, additive := true, noshow := true } "new\n".toList "old".toList).assigned ≠
    some "oldnew".toList :=
  (C107_clauses_fail { to_ := true, noshow := true } "new\n".toList "old".toList).2.2.2 "new".toList (by decide) (by decide +kernel)

end Props
