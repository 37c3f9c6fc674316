import Verif.Model.MacroLines
/-!
# C136: lines with `&`

FoxPro replaces `&name` by the value of the variable before it runs a line; comments are not looked at, and in a
string `&name` stays as it is if there is no such variable.
-/
namespace Props
open Model.MacroLines

namespace MacroLinesSpec

/-- The first `&` of the line is followed by a name. -/
def NameAfterFirst (l : Str) : Prop :=
  ∃ p c r, l = p ++ '&' :: c :: r ∧ '&' ∉ p ∧ (c = '_' ∨ c.isAlpha = true)

/-- A comment line: an asterisk after blanks. -/
def Comment (l : Str) : Prop := ∃ b r, l = b ++ '*' :: r ∧ ∀ c ∈ b, c = ' ' ∨ c = '\t'

/-- The run of a program without substitutions, in which `step` is the effect of a line. -/
def fox {σ : Type} (step : Str → σ → σ) (ls : List Str) (s : σ) : σ := ls.foldl (fun s l => step l s) s

end MacroLinesSpec
open MacroLinesSpec

namespace MacroLinesAux

theorem macro_skip (c : Char) (s : Str) (h : c ≠ '&') : macroToken (c :: s) = macroToken s := by
  rw [macroToken]
  · rintro c' s' h1
    cases h1; exact absurd rfl h
  · rintro h1
    cases h1; exact absurd rfl h

theorem macro_iff : ∀ l : Str, macroToken l = true ↔ NameAfterFirst l := by
  intro l
  induction l with
  | nil =>
    refine ⟨fun h => (by cases h), ?_⟩
    rintro ⟨p, c, r, h, _⟩
    cases p <;> cases h
  | cons a s ih =>
    by_cases ha : a = '&'
    · subst ha
      cases s with
      | nil =>
        refine ⟨fun h => (by cases h), ?_⟩
        rintro ⟨p, c, r, h, hp, _⟩
        cases p with
        | nil => cases h
        | cons d p =>
          simp only [List.cons_append, List.cons.injEq] at h
          exact absurd (h.1 ▸ List.mem_cons_self) hp
      | cons c s =>
        have : macroToken ('&' :: c :: s) = idStart c := rfl
        rw [this]
        unfold idStart
        constructor
        · intro h
          exact ⟨[], c, s, rfl, by simp, by simpa using h⟩
        · rintro ⟨p, d, r, h, hp, hd⟩
          cases p with
          | nil => cases h; simpa using hd
          | cons e p =>
            simp only [List.cons_append, List.cons.injEq] at h
            exact absurd (h.1 ▸ List.mem_cons_self) hp
    · rw [macro_skip a s ha, ih]
      constructor
      · rintro ⟨p, c, r, h, hp, hc⟩
        refine ⟨a :: p, c, r, by rw [h]; rfl, ?_, hc⟩
        simp only [List.mem_cons, not_or]
        exact ⟨fun e => ha e.symm, hp⟩
      · rintro ⟨p, c, r, h, hp, hc⟩
        cases p with
        | nil => cases h; exact absurd rfl ha
        | cons d p =>
          cases h
          exact ⟨p, c, r, rfl, fun hm => hp (List.mem_cons_of_mem _ hm), hc⟩

theorem run_cons_macro {σ : Type} (step : Str → σ → σ) (l : Str) (ls : List Str) (s : σ) (h : NameAfterFirst l) :
    run step (l :: ls) s = .error .attributeError := by
  simp only [run, visitLine, (macro_iff l).mpr h, if_true]

theorem run_cons_other {σ : Type} (step : Str → σ → σ) (l : Str) (ls : List Str) (s : σ) (h : ¬NameAfterFirst l) :
    run step (l :: ls) s = run step ls (step l s) := by
  have : macroToken l = false := by
    cases hm : macroToken l with
    | false => rfl
    | true => exact absurd ((macro_iff l).mp hm) h
  simp [run, visitLine, this]

end MacroLinesAux
open MacroLinesAux

namespace MacroLinesDemo
def s (x : String) : Str := x.toList
/-- The state is the lines that have run. -/
def step (l : Str) (st : List Str) : List Str := st ++ [l]
end MacroLinesDemo
open MacroLinesDemo

/-- **C136**: lines run like those of a program without substitutions exactly if in none of them the first `&` is followed by a name;
otherwise the program stops with an error. -/
theorem C136_runs_iff {σ : Type} (step : Str → σ → σ) (ls : List Str) (st : σ) :
    (run step ls st = .ok (fox step ls st) ↔ ∀ l ∈ ls, ¬NameAfterFirst l) ∧
    (run step ls st = .error .attributeError ↔ ∃ l ∈ ls, NameAfterFirst l) := by
  induction ls generalizing st with
  | nil => simp [run, fox]
  | cons l ls ih =>
    by_cases h : NameAfterFirst l
    · rw [run_cons_macro step l ls st h]
      refine ⟨⟨fun e => (by cases e), fun e => absurd h (e l List.mem_cons_self)⟩, ⟨fun _ => ⟨l, List.mem_cons_self, h⟩, fun _ => rfl⟩⟩
    · rw [run_cons_other step l ls st h]
      have hf : fox step (l :: ls) st = fox step ls (step l st) := rfl
      rw [hf, (ih (step l st)).1, (ih (step l st)).2]
      simp [h]

example : run step [s "x = 1", s "* a & b"] [] = .ok [s "x = 1", s "* a & b"] ∧
    run step [s "x = 1", s "USE &cTable"] [] = .error .attributeError := ⟨rfl, rfl⟩

/-- **C136 fails** for comments: in FoxPro a comment line has no effect; one in which the first `&` is followed by a letter (`* R&D`)
ends the program with an error, wherever it stands. -/
theorem C136_comment_fails {σ : Type} (step : Str → σ → σ) (hstep : ∀ l, Comment l → ∀ st, step l st = st) (before after : List Str)
    (l : Str) (comment : Comment l) (h : NameAfterFirst l) (st : σ) :
    fox step (before ++ l :: after) st = fox step (before ++ after) st ∧
    run step (before ++ l :: after) st = .error .attributeError := by
  refine ⟨?_, (C136_runs_iff step _ st).2.mpr ⟨l, by simp, h⟩⟩
  simp [fox, List.foldl_append, hstep l comment]

example : Comment (s " * R&D") ∧ NameAfterFirst (s " * R&D") :=
  ⟨⟨[' '], s " R&D", rfl, by simp⟩, ⟨s " * R", 'D', [], rfl, by decide, .inr rfl⟩⟩

/-- **C136 fails** for texts: a statement with `&` and a letter in a string ends the program, too, whether or not there is a variable
of that name. -/
theorem C136_text_fails {σ : Type} (step : Str → σ → σ) (before after : List Str) (x a b : Str) (q c : Char)
    (hx : '&' ∉ x) (ha : '&' ∉ a) (hq : q ≠ '&') (hc : c.isAlpha = true) (st : σ) :
    run step (before ++ (x ++ q :: a ++ '&' :: c :: b ++ [q]) :: after) st = .error .attributeError := by
  refine (C136_runs_iff step _ st).2.mpr ⟨_, List.mem_append_right _ List.mem_cons_self, x ++ q :: a, c, b ++ [q], by simp, ?_, .inr hc⟩
  simp only [List.mem_append, List.mem_cons, not_or]
  exact ⟨hx, fun e => hq e.symm, ha⟩

example : run step [s "x = \"AT&T\""] [] = .error .attributeError := rfl

/-- **C136 fails** for `&name` behind another `&` that no name follows: the line is not taken for one with a substitution. -/
theorem C136_second_fails (p r : Str) (c : Char) (hp : '&' ∉ p) (hc : c ≠ '_' ∧ c.isAlpha = false) :
    visitLine (p ++ '&' :: c :: r) = .other (p ++ '&' :: c :: r) := by
  have : ¬NameAfterFirst (p ++ '&' :: c :: r) := by
    rintro ⟨p', c', r', h, hp', hc'⟩
    have key : ∀ (p p' : Str) (t t' : Str), '&' ∉ p → '&' ∉ p' → p ++ '&' :: t = p' ++ '&' :: t' → t = t' := by
      intro p
      induction p with
      | nil =>
        intro p' t t' _ h2 h3
        cases p' with
        | nil => cases h3; rfl
        | cons d p' => cases h3; exact absurd List.mem_cons_self h2
      | cons d p ih =>
        intro p' t t' h1 h2 h3
        cases p' with
        | nil => cases h3; exact absurd List.mem_cons_self h1
        | cons e p' =>
          simp only [List.cons_append, List.cons.injEq] at h3
          exact ih p' t t' (fun h => h1 (List.mem_cons_of_mem _ h)) (fun h => h2 (List.mem_cons_of_mem _ h)) h3.2
    have := key p p' _ _ hp hp' h
    cases this
    rcases hc' with h | h
    · exact hc.1 h
    · rw [hc.2] at h; cases h
  unfold visitLine
  rw [if_neg]
  intro h; exact this ((macro_iff _).mp h)

example : visitLine (s "? \"a & b\", &x") = .other (s "? \"a & b\", &x") := by decide +kernel

end Props
