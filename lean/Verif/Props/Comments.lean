import Verif.Model.Comments
/-!
# Comment lines (C52)
-/
namespace Props
open Model.Comments

/-- Specification: Python ignores the line. -/
def Ignored (line : Str) : Prop := (line = [] ∨ line.head? = some '#') ∧ '\n' ∉ line

/-- The characters of a comment that are neither decoration nor white space. -/
def content (s : Str) : Str := s.filter fun c => !(ws c || c = '*' || c = '#' || c = '&' || c = '!' || c = ';')

namespace CommentsAux

theorem mem_splitLines : ∀ (s l : Str), l ∈ splitLines s → '\n' ∉ l
  | [], l, h => by simp [splitLines] at h; simp [h]
  | c :: s, l, h => by
    unfold splitLines at h
    split at h
    · cases ‹_ = _›
    · rename_i heq
      rw [List.cons.injEq] at heq
      rcases List.mem_cons.mp h with h | h
      · rw [h]; simp
      · exact mem_splitLines s l (heq.2 ▸ h)
    · rename_i c' s' hne heq
      rw [List.cons.injEq] at heq
      obtain ⟨rfl, rfl⟩ := heq
      have hc : '\n' ≠ c := by rintro rfl; exact hne rfl
      split at h
      · rename_i l' ls hs
        have hall := fun l hl => mem_splitLines s l (hs ▸ hl)
        rcases List.mem_cons.mp h with h | h
        · rw [h, List.mem_cons, not_or]
          exact ⟨hc, hall l' (by simp)⟩
        · exact hall l (List.mem_cons_of_mem _ h)
      · rw [List.mem_singleton] at h
        rw [h]; simp [hc]

theorem join_splitLines : ∀ s : Str, (splitLines s).flatten = s.filter (· ≠ '\n')
  | [] => rfl
  | c :: s => by
    unfold splitLines
    split
    · cases ‹_ = _›
    · rename_i heq
      rw [List.cons.injEq] at heq
      obtain ⟨rfl, rfl⟩ := heq
      rw [List.flatten_cons, join_splitLines]; simp
    · rename_i c' s' hne heq
      rw [List.cons.injEq] at heq
      obtain ⟨rfl, rfl⟩ := heq
      have hc : c ≠ '\n' := by rintro rfl; exact hne rfl
      rw [List.filter_cons_of_pos (by simpa using hc), ← join_splitLines s]
      split
      · rename_i l ls hs; rw [hs]; rfl
      · rename_i hs; rw [hs]; rfl

theorem content_append (a b : Str) : content (a ++ b) = content a ++ content b := List.filter_append ..

theorem content_nil {s : Str} (h : ∀ c ∈ s, ws c = true ∨ c = '*' ∨ c = '#' ∨ c = '&' ∨ c = '!' ∨ c = ';') : content s = [] := by
  unfold content
  rw [List.filter_eq_nil_iff]
  intro c hc
  rcases h c hc with h | h | h | h | h | h <;> simp [h]

theorem content_ws {s : Str} (h : s.all ws = true) : content s = [] :=
  content_nil fun c hc => .inl (List.all_eq_true.mp h c hc)

theorem content_dropWhile (s : Str) : content (s.dropWhile ws) = content s := by
  induction s with
  | nil => rfl
  | cons c s ih =>
    rw [List.dropWhile_cons]
    split
    · rename_i h
      rw [ih]
      unfold content
      rw [List.filter_cons_of_neg (by simp [h])]
    · rfl

theorem content_reverse (s : Str) : content s.reverse = (content s).reverse := by
  unfold content; rw [List.filter_reverse]

theorem content_strip (s : Str) : content (strip s) = content s := by
  unfold strip
  rw [content_reverse, content_dropWhile, content_reverse, List.reverse_reverse, content_dropWhile]

theorem content_hash (n : Nat) : content (List.replicate n '#') = [] :=
  content_nil fun c hc => by rw [(List.mem_replicate.mp hc).2]; simp

theorem content_repl (a : Str) (b : Option Str) (c : Str) : content (repl a b c) = content (b.getD []) := by
  unfold repl
  split
  · rename_i h; rw [h.2.1]
  · rw [content_strip, content_append, content_append, content_hash, content_hash, List.append_nil, List.nil_append]
    unfold middleOf
    split
    · exact content_strip _
    · rfl

theorem dropWhile_hash (s : Str) : ('#' :: s).dropWhile ws = '#' :: s := rfl

/-- Stripping text that starts with `#` leaves the `#`. -/
theorem strip_hash (s : Str) : ∃ t, strip ('#' :: s) = '#' :: t := by
  unfold strip
  rw [dropWhile_hash, List.reverse_cons]
  have key : ∀ r : Str, ∃ t, ((r ++ ['#']).dropWhile ws).reverse = '#' :: t := by
    intro r
    induction r with
    | nil => exact ⟨[], rfl⟩
    | cons c r ih =>
      rw [List.cons_append, List.dropWhile_cons]
      split
      · exact ih
      · exact ⟨(c :: r).reverse, by rw [← List.cons_append, List.reverse_append]; rfl⟩
  exact key s.reverse

theorem repl_hash (a : Str) (b : Option Str) (c : Str) : repl a b c = [] ∨ (repl a b c).head? = some '#' := by
  unfold repl
  split
  · exact .inl rfl
  · right
    have hs : (startOf a).length ≠ 0 := by
      unfold startOf
      split
      · simp
      · rename_i h
        intro h0
        exact h (.inl (List.length_eq_zero_iff.mp h0))
    obtain ⟨n, hn⟩ := Nat.exists_eq_succ_of_ne_zero hs
    generalize middleOf a b c = m
    rw [hn, List.replicate_succ, List.cons_append, List.cons_append]
    obtain ⟨t, ht⟩ := strip_hash (List.replicate n '#' ++ m ++ List.replicate c.length '#')
    rw [ht]; rfl

theorem mem_strip {s : Str} {c : Char} (h : c ∈ strip s) : c ∈ s := by
  unfold strip at h
  rw [List.mem_reverse] at h
  have := (List.dropWhile_sublist ws).subset h
  rw [List.mem_reverse] at this
  exact (List.dropWhile_sublist ws).subset this

theorem mem_repl {a : Str} {b : Option Str} {c : Str} {x : Char} (h : x ∈ repl a b c) : x = '#' ∨ x ∈ b.getD [] := by
  unfold repl at h
  split at h
  · cases h
  · have := mem_strip h
    rw [List.mem_append, List.mem_append] at this
    rcases this with (h | h) | h
    · exact .inl (List.mem_replicate.mp h).2
    · right
      unfold middleOf at h
      split at h
      · exact mem_strip h
      · exact h
    · exact .inl (List.mem_replicate.mp h).2

end CommentsAux
open CommentsAux

/-- C52: a statement that cannot be converted becomes lines that Python ignores, with
the whole text of the statement. -/
theorem C52_fix_me (source : Str) :
    (∀ l ∈ fixMe source, Ignored l) ∧
    ((fixMe source).map fun l => l.drop 9).flatten = source.filter (· ≠ '\n') := by
  constructor
  · intro l hl
    obtain ⟨l', hl', rfl⟩ := List.mem_map.mp hl
    rw [List.mem_filter] at hl'
    refine ⟨.inr rfl, ?_⟩
    have := mem_splitLines source l' hl'.1
    rw [List.mem_append, not_or]
    exact ⟨by decide, this⟩
  · rw [← join_splitLines, fixMe, List.map_map]
    have : ∀ ls : List Str, (((ls.filter fun l => !l.isEmpty).map ((fun l : Str => l.drop 9) ∘ fun l => "#FIX ME: ".toList ++ l))).flatten = ls.flatten := by
      intro ls
      induction ls with
      | nil => rfl
      | cons l ls ih =>
        rw [List.filter_cons]
        cases l with
        | nil => simpa using ih
        | cons c l => simpa using ih
    exact this _

example : (fixMe "do x;\n with y".toList).map String.ofList = ["#FIX ME: do x;", "#FIX ME:  with y"] := by decide +kernel

/-- C52: a comment becomes a line that Python ignores, with the same content, if its
form is recognised. -/
theorem C52_comment_partial (comment out : Str) (hline : '\n' ∉ comment) (hm : ∃ a b c, Match comment a b c) (h : Converted comment out) :
    Ignored out ∧ content out = content comment := by
  rcases h with ⟨a, b, c, hmatch, rfl⟩ | ⟨hno, _⟩
  · obtain ⟨w1, w2, e, rfl, h1, h2, h3, h4, h5, h6⟩ := hmatch
    refine ⟨⟨repl_hash a b c, ?_⟩, ?_⟩
    · intro hmem
      rcases mem_repl hmem with h | h
      · revert h; decide
      · exact hline (by simp [h])
    · rw [content_repl, content_append, content_append, content_append, content_append, content_append, content_ws h1, content_ws h5]
      have ha : content a = [] := by
        rcases h2 with rfl | rfl | h2
        · rfl
        · rfl
        · exact content_nil fun c hc => .inr (.inl (of_decide_eq_true (List.all_eq_true.mp h2 c hc)))
      have hc : content c = [] := content_nil fun x hx => .inr (.inl (of_decide_eq_true (List.all_eq_true.mp h4 x hx)))
      have he : content e = [] := content_nil fun x hx => .inr (.inr (.inr (.inr (.inr (of_decide_eq_true (List.all_eq_true.mp h6 x hx))))))
      simp [ha, hc, he]
  · obtain ⟨a, b, c, hm⟩ := hm
    exact absurd hm (hno a b c)

example : Ignored "### total ###".toList ∧ content "### total ###".toList = content "*** total ***".toList := by
  refine C52_comment_partial _ _ (by decide) ?_ ?_
  · exact ⟨"***".toList, some " total ".toList, "***".toList, [], [], [], by decide, rfl, .inr (.inr rfl),
      .inl ⟨" tota".toList, 'l', " ".toList, by decide, by decide, by decide, by decide, by decide, by decide⟩, rfl, rfl, rfl⟩
  · refine .inl ⟨"***".toList, some " total ".toList, "***".toList, ⟨[], [], [], by decide, rfl, .inr (.inr rfl), .inl ?_, rfl, rfl, rfl⟩, by decide +kernel⟩
    exact ⟨" tota".toList, 'l', " ".toList, by decide, by decide, by decide, by decide, by decide, by decide⟩

/-- C52: the form of every comment is recognised that ends in another character than a
star, a semicolon and a blank. -/
theorem C52_recognised (p : Str) (c : Char) (h1 : c ≠ '*') (h2 : c ≠ ';') (h3 : c ≠ ' ') (hline : '\n' ∉ p) :
    ∃ a b c', Match (p ++ [c]) a b c' :=
  ⟨[], some (p ++ [c]), [], [], [], [], by simp, rfl, .inr (.inr rfl), .inl ⟨p, c, [], rfl, h1, h2, h3, rfl, hline⟩, rfl, rfl, rfl⟩

example : Converted "*** total ***".toList "### total ###".toList := by
  refine .inl ⟨"***".toList, some " total ".toList, "***".toList, ⟨[], [], [], by decide, rfl, .inr (.inr rfl), .inl ?_, rfl, rfl, rfl⟩, by decide +kernel⟩
  exact ⟨" tota".toList, 'l', " ".toList, by decide, by decide, by decide, by decide, by decide, by decide⟩

/-- C52 does not hold for stars with blanks between them: the line is not recognised
and is left as it is, which Python does not ignore. -/
theorem C52_stars_fails (out : Str) (h : Converted "* * *".toList out) : out = "* * *".toList ∧ ¬ Ignored out := by
  have hno : ∀ a b c, ¬ Match "* * *".toList a b c := by
    rintro a b c ⟨w1, w2, e, hs, h1, h2, h3, h4, h5, h6⟩
    have hall : ∀ x ∈ "* * *".toList, x = '*' ∨ x = ' ' := by decide
    -- no character that the second group needs
    have hb : b.getD [] = [] := by
      cases b with
      | none => rfl
      | some b =>
        have hsub : ∀ x ∈ b, x = '*' ∨ x = ' ' := by
          intro x hx
          apply hall
          rw [hs]
          simp [hx]
        rcases h3 with ⟨p, c, w, rfl, hc1, _, hc3, _⟩ | ⟨p, c, w, rfl, hc1, hc3, _⟩ | ⟨w, rfl, _⟩
        · rcases hsub c (by simp) with h | h
          · exact absurd h hc1
          · exact absurd h hc3
        · rcases hsub c (by simp) with h | h
          · exact absurd h hc1
          · exact absurd h hc3
        · rcases hsub ';' (by simp) with h | h <;> exact absurd h (by decide)
    have he : e = [] := by
      cases e with
      | nil => rfl
      | cons x e =>
        have hx : x = ';' := by simpa using (List.all_eq_true.mp h6 x (by simp))
        have := hall x (by rw [hs]; simp)
        rw [hx] at this
        rcases this with h | h <;> exact absurd h (by decide)
    rw [hb, he, List.append_nil, List.append_nil] at hs
    -- white space at both ends is empty
    have hw1 : w1 = [] := by
      cases w1 with
      | nil => rfl
      | cons x w1 =>
        have hx := List.all_eq_true.mp h1 x (by simp)
        simp only [List.cons_append] at hs
        have : x = '*' := (List.cons.inj hs).1.symm
        rw [this] at hx; exact absurd hx (by decide)
    have hw2 : w2 = [] := by
      have hl := congrArg List.getLast? hs
      rw [List.getLast?_append] at hl
      cases hg : w2.getLast? with
      | none => exact List.getLast?_eq_none_iff.mp hg
      | some x =>
        rw [hg] at hl
        have hx := List.all_eq_true.mp h5 x (List.mem_of_getLast? hg)
        have : x = '*' := (Option.some.inj (hl : some '*' = some x)).symm
        rw [this] at hx; exact absurd hx (by decide)
    rw [hw1, hw2, List.append_nil, List.nil_append] at hs
    -- the rest has no blanks
    have hmem : ' ' ∈ a ++ c := by rw [← hs]; decide
    rcases List.mem_append.mp hmem with hm | hm
    · rcases h2 with rfl | rfl | h2
      · revert hm; decide
      · revert hm; decide
      · have := List.all_eq_true.mp h2 ' ' hm; revert this; decide
    · have := List.all_eq_true.mp h4 ' ' hm; revert this; decide
  rcases h with ⟨a, b, c, hm, _⟩ | ⟨_, rfl⟩
  · exact absurd hm (hno a b c)
  · refine ⟨rfl, ?_⟩
    rintro ⟨h | h, _⟩ <;> revert h <;> decide

end Props
