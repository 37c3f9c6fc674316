import Verif.Model.AtSay
/-!
# C146: `@ .. SAY` becomes one statement
-/
namespace Props
open Model.AtSay

namespace AtSaySpec

/-- The physical lines of a text. -/
def lines : List Char → List (List Char)
  | [] => [[]]
  | c :: t =>
    if c = '\n' then [] :: lines t
    else match lines t with
      | l :: ls => (c :: l) :: ls
      | [] => [[c]]

/-- What Python sees of a line: everything before the first `#` that is not in a string constant (`q`: the
delimiter of the string constant that is open). -/
def code : Option Char → List Char → List Char
  | _, [] => []
  | none, c :: t => if c = '#' then [] else c :: code (if c = '\'' ∨ c = '"' then some c else none) t
  | some q, '\\' :: d :: t => '\\' :: d :: code (some q) t
  | some q, c :: t => c :: code (if c = q then none else some q) t

/-- Nothing but blanks and tabulators. -/
def Blank (s : List Char) : Prop := ∀ c ∈ s, c = ' ' ∨ c = '\t'

instance (s : List Char) : Decidable (Blank s) := by unfold Blank; infer_instance

/-- The lines that are not blank for Python. -/
def statements (text : List Char) : List (List Char) :=
  ((lines text).map (code none)).filter (fun l => decide (¬ Blank l))

/-- The code of an expression: on one line, its string constants are closed, and no `#` is outside of them. -/
def Closed (e : List Char) : Prop := '\n' ∉ e ∧ ∀ t, code none (e ++ t) = e ++ code none t

end AtSaySpec

open AtSaySpec

namespace AtSayAux

theorem lines_ne (s : List Char) : lines s ≠ [] := by
  cases s with
  | nil => simp [lines]
  | cons c t =>
    rw [lines]
    split
    · simp
    · split <;> simp

/-- The first line of a text, and what is behind it. -/
theorem lines_append {s : List Char} (h : '\n' ∉ s) (t : List Char) :
    ∃ l ls, lines t = l :: ls ∧ lines (s ++ t) = (s ++ l) :: ls := by
  induction s with
  | nil =>
    cases ht : lines t with
    | nil => exact absurd ht (lines_ne t)
    | cons l ls => exact ⟨l, ls, rfl, ht⟩
  | cons c s ih =>
    obtain ⟨l, ls, h1, h2⟩ := ih (fun hm => h (List.mem_cons_of_mem _ hm))
    refine ⟨l, ls, h1, ?_⟩
    have hc : c ≠ '\n' := fun hc => h (by rw [hc]; simp)
    rw [List.cons_append, lines, if_neg hc, h2]
    rfl

theorem code_blanks (n : Nat) (s : List Char) : code none (List.replicate n ' ' ++ s) = List.replicate n ' ' ++ code none s := by
  induction n with
  | zero => rfl
  | succ n ih =>
    rw [List.replicate_succ, List.cons_append, code]
    simp only [show (' ' = '#') = False by decide, show (' ' = '\'' ∨ ' ' = '"') = False by decide, if_false]
    rw [ih]; rfl

end AtSayAux

open AtSayAux

/-- C146: `@ .. SAY` becomes the single statement that prints the value exactly if every further line of
the FoxPro statement is blank or a comment for Python. -/
theorem C146_statement_iff (s : Stmt) (e : List Char) (n : Nat) (hs : s.say = [e] ∨ (s.say = [] ∧ e = [])) (he : Closed e) (out : List Char)
    (h : visitAtPos s = some out) :
    statements (indented n out) = [List.replicate (4 * n) ' ' ++ "print(".toList ++ e ++ ") ".toList] ↔
      ∀ l ∈ (lines s.tokens.flatten).tail, Blank (code none l) := by
  have h : out = "print(".toList ++ e ++ ") # ".toList ++ ctxText s := by
    rw [visitAtPos] at h
    rcases hs with hs | ⟨hs, rfl⟩
    · rw [hs] at h; exact (Option.some.inj h).symm
    · rw [hs] at h
      rw [← Option.some.inj h]
      simp
  subst h
  have hp : '\n' ∉ List.replicate (4 * n) ' ' ++ ("print(".toList ++ e ++ ") # ".toList) := by
    intro hm
    rcases List.mem_append.1 hm with h | h
    · have := (List.mem_replicate.1 h).2
      exact absurd this (by decide)
    · rcases List.mem_append.1 h with h | h
      · rcases List.mem_append.1 h with h | h
        · exact absurd h (by decide)
        · exact he.1 h
      · exact absurd h (by decide)
  obtain ⟨l, ls, h1, h2⟩ := lines_append hp (ctxText s)
  have e1 : indented n ("print(".toList ++ e ++ ") # ".toList ++ ctxText s) =
      (List.replicate (4 * n) ' ' ++ ("print(".toList ++ e ++ ") # ".toList)) ++ ctxText s := by
    simp [indented]
  have e2 : code none ((List.replicate (4 * n) ' ' ++ ("print(".toList ++ e ++ ") # ".toList)) ++ l) =
      List.replicate (4 * n) ' ' ++ "print(".toList ++ e ++ ") ".toList := by
    rw [List.append_assoc, code_blanks, List.append_assoc, List.append_assoc]
    have e3 : code none ("print(".toList ++ (e ++ (") # ".toList ++ l))) = "print(".toList ++ code none (e ++ (") # ".toList ++ l)) := by
      simp [code]
    have e4 : code none (") # ".toList ++ l) = ") ".toList := by simp [code]
    rw [e3, he.2, e4]
    simp
  have hb : decide (¬ Blank (List.replicate (4 * n) ' ' ++ "print(".toList ++ e ++ ") ".toList)) = true := by
    rw [decide_eq_true_eq]
    intro hb
    exact absurd (hb 'p' (by simp)) (by decide)
  have ht : (lines s.tokens.flatten).tail = ls := by
    show (lines (ctxText s)).tail = ls
    rw [h1]; rfl
  rw [e1, statements, h2, List.map_cons, e2]
  rw [List.filter_cons_of_pos (p := fun l => decide (¬ Blank l)) hb, ht, List.cons_eq_cons, List.filter_eq_nil_iff]
  simp only [true_and, List.mem_map, forall_exists_index, and_imp, forall_apply_eq_imp_iff₂, decide_eq_true_eq, Decidable.not_not]

/-- C146: a statement on one line is always right. -/
theorem C146_one_line_partial (s : Stmt) (e : List Char) (n : Nat) (hs : s.say = [e]) (he : Closed e) (hl : ∀ t ∈ s.tokens, '\n' ∉ t)
    (out : List Char) (h : visitAtPos s = some out) :
    statements (indented n out) = [List.replicate (4 * n) ' ' ++ "print(".toList ++ e ++ ") ".toList] := by
  rw [C146_statement_iff s e n (.inl hs) he out h]
  have hf : '\n' ∉ s.tokens.flatten := by
    intro hm
    obtain ⟨t, ht, hm⟩ := List.mem_flatten.1 hm
    exact hl t ht hm
  obtain ⟨l, ls, h1, h2⟩ := lines_append hf []
  rw [List.append_nil] at h2
  rw [h2]
  cases h1
  simp

namespace AtSayDemo

/-- `@ 1,2 SAY "a#b"` -/
def one : Stmt := { tokens := ["@".toList, " ".toList, "1,2 SAY ".toList, "\"a#b\"".toList], say := ["'a#b'".toList] }

/-- `@ 1,2 SAY total ;` and `STYLE "T"` on the next line. -/
def two : Stmt :=
  { tokens := ["@ 1,2 SAY ".toList, "total".toList, " ".toList, ";\n".toList, "  ".toList, "STYLE \"T\"".toList], say := ["S.total".toList] }

theorem closed_one : Closed "'a#b'".toList := ⟨by decide, fun t => by simp [code]⟩
theorem closed_two : Closed "S.total".toList := ⟨by decide, fun t => by simp [code]⟩

end AtSayDemo

open AtSayDemo

example : statements (indented 1 ("print('a#b') # ".toList ++ "@ 1,2 SAY \"a#b\"".toList)) = ["    print('a#b') ".toList] :=
  C146_one_line_partial one _ 1 rfl closed_one (by decide) _ rfl

example : (visitAtPos two).map (fun out => statements (indented 1 out)) = some ["    print(S.total) ".toList, "  STYLE \"T\"".toList] := by decide +kernel

/-- C146 fails for every statement that is continued on a further line: if a character that is neither blank
nor `#` is the first one of that line, Python sees the rest of the FoxPro statement as code. -/
theorem C146_continued_fails (a b c : List Char) (x : Char) (e : List Char) (n : Nat) (he : Closed e) (ha : '\n' ∉ a)
    (hb : Blank b) (hx : x ≠ ' ' ∧ x ≠ '\t' ∧ x ≠ '#' ∧ x ≠ '\n') (s : Stmt) (hs : s.say = [e])
    (ht : s.tokens.flatten = a ++ '\n' :: (b ++ x :: c)) (out : List Char) (h : visitAtPos s = some out) :
    statements (indented n out) ≠ [List.replicate (4 * n) ' ' ++ "print(".toList ++ e ++ ") ".toList] := by
  intro hst
  rw [C146_statement_iff s e n (.inl hs) he out h, ht] at hst
  obtain ⟨l, ls, h1, h2⟩ := lines_append ha ('\n' :: (b ++ x :: c))
  rw [lines, if_pos rfl] at h1
  have hbx : '\n' ∉ b ++ [x] := by
    intro hm
    rcases List.mem_append.1 hm with hm | hm
    · rcases hb _ hm with h | h <;> exact absurd h (by decide)
    · exact hx.2.2.2 (List.mem_singleton.1 hm).symm
  obtain ⟨k, ks, h3, h4⟩ := lines_append hbx c
  rw [List.append_assoc, List.singleton_append] at h4
  rw [h4] at h1
  cases h1
  rw [h2] at hst
  have := hst ((b ++ [x]) ++ k) (by simp)
  have hcode : ∀ (b : List Char), Blank b → x ∈ code none ((b ++ [x]) ++ k) := by
    intro b
    induction b with
    | nil =>
      intro _
      show x ∈ code none (x :: k)
      rw [code, if_neg hx.2.2.1]; simp
    | cons y b ih =>
      intro hb
      have hy : y ≠ '#' ∧ ¬ (y = '\'' ∨ y = '"') := by rcases hb y (by simp) with rfl | rfl <;> decide
      show x ∈ code none (y :: ((b ++ [x]) ++ k))
      rw [code, if_neg hy.1, if_neg hy.2]
      exact List.mem_cons_of_mem _ (ih (fun c hc => hb c (List.mem_cons_of_mem _ hc)))
  rcases this x (hcode b hb) with h | h
  · exact hx.1 h
  · exact hx.2.1 h

example : statements (indented 1 ("print(S.total) # ".toList ++ "@ 1,2 SAY total ;\n  STYLE \"T\"".toList)) ≠ ["    print(S.total) ".toList] :=
  C146_continued_fails "@ 1,2 SAY total ;".toList "  ".toList "TYLE \"T\"".toList 'S' "S.total".toList 1 closed_two
    (by decide) (by decide) (by decide) two rfl (by decide) _ rfl

/-- C146: a statement is converted exactly if it has at most one SAY; one with several, which FoxPro does not have, is left as a
comment. -/
theorem C146_converted_iff (s : Stmt) : (visitAtPos s).isSome = true ↔ s.say.length ≤ 1 := by
  obtain ⟨tokens, say⟩ := s
  match say with
  | [] => simp [visitAtPos]
  | [e] => simp [visitAtPos]
  | e :: f :: l => simp [visitAtPos]

example : (visitAtPos ⟨["@ 1,2 say a say b".toList], ["S.a".toList, "S.b".toList]⟩).isSome ≠ true := fun h =>
  absurd ((C146_converted_iff _).1 h) (by decide)

end Props
