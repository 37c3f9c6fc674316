import Verif.Props.Inline
import Verif.Model.TextFns
/-!
# Padding, trimming, capital letters and tests of values (C87-C91)

Calls are converted by `Model/Expr.lean`; the theorems speak of the value of the generated Python
expression for arguments that are themselves arbitrary expressions.  A text argument has to be an
expression that needs no parentheses before a method call (`strength a = 13`, see
`C71_receiver_iff`).
-/
namespace Props.TextSpec
open PyVal

/-- PADR: the first `n` characters of the text followed by as many `c` as needed. -/
def foxPadr (s : List Char) (n : Nat) (c : Char) : List Char := (s ++ List.replicate n c).take n

/-- PADL: the missing characters in front of the first `n` characters of the text. -/
def foxPadl (s : List Char) (n : Nat) (c : Char) : List Char := List.replicate (n - s.length) c ++ s.take n

/-- PADC: `n` characters, the text in the middle. -/
def Centred (s : List Char) (n : Nat) (c : Char) (r : List Char) : Prop :=
  r.length = n ∧ ∃ a b, r = List.replicate a c ++ s.take n ++ List.replicate b c ∧ a ≤ b + 1 ∧ b ≤ a + 1

/-- LTRIM and RTRIM remove blanks, ALLTRIM both. -/
def foxLtrim (s : List Char) : List Char := s.dropWhile (· == ' ')
def foxRtrim (s : List Char) : List Char := (s.reverse.dropWhile (· == ' ')).reverse
def foxAlltrim (s : List Char) : List Char := foxRtrim (foxLtrim s)

/-- Tabulators, line ends, separators and the hard space. -/
def Other (c : Char) : Prop := c.toNat ∈ [9, 10, 11, 12, 13, 28, 29, 30, 31, 133, 160]

/-- PROPER: the first character of every word is a capital letter, the others are small ones; words are
separated by blanks. `inside` says that the character before belongs to the word. -/
def foxProper (inside : Bool) : List Char → List Char
  | [] => []
  | c :: s => (if inside then c.toLower else c.toUpper) :: foxProper (c != ' ') s

/-- EMPTY. -/
def foxEmpty : Val → Bool
  | .str s => s.all fun c => c == ' ' || c == '\t' || c == '\r' || c == '\n'
  | .int n => n == 0
  | .bool b => !b
  | _ => false

/-- FoxPro's ISBLANK. -/
def foxBlank : Val → Bool
  | .str s => s.all (· == ' ')
  | _ => false

/-- Values of FoxPro. -/
def Proper : Val → Prop
  | .str _ => True
  | .int _ => True
  | .bool _ => True
  | .none => True
  | .date _ => True
  | _ => False

end Props.TextSpec

namespace Props
open PyExpr FoxExpr Expr Props.ExprAux Props.PyExprAux PyVal InlineAux TextSpec Model.TextFns

variable {env : String → Val}

namespace TextAux

theorem shows_three {f : Fn} {a b c : Ex} {x y z v : Val} (ha : Is env a x) (hb : Is env b y) (hc : Is env c z)
    (har : f.arity 3 = true) (hf : fits f.needs [a, b, c] = true) (hns : f ≠ .substr)
    (hv : fnVal (py env) f [x, y, z] = v) : Shows env (.call f [a, b, c]) v := by
  obtain ⟨p1, t1, v1⟩ := ha
  obtain ⟨p2, t2, v2⟩ := hb
  obtain ⟨p3, t3, v3⟩ := hc
  have := C71_expression_partial (py_laws env) (.call f [a, b, c])
    (by rw [Plain, Plains, Plains, Plains, Plains, p1, p2, p3, hf]; simp [har])
    (by
      rw [Typed, Typeds, Typeds, Typeds, Typeds]
      exact ⟨⟨t1, t2, t3, trivial⟩, fun h => absurd h hns⟩)
  rwa [fox, foxs, foxs, foxs, foxs, v1, v2, v3, hv] at this

theorem meth_one {m : String} {a : Ex} {s : List Char} {v : Val} (ha : Is env a (.str s)) (hs : strength a = 13)
    (hv : callPlain s m = v) : Shows env (.call (.meth m) [a]) v :=
  shows_one ha rfl (by simp [Fn.needs, fits, atom (Nat.le_refl 13) hs]) hv

theorem meth_two {m : String} {a b : Ex} {s : List Char} {n : Int} {v : Val} (ha : Is env a (.str s)) (hs : strength a = 13)
    (hb : Is env b (.int n)) (hv : callFill s m n ' ' = v) : Shows env (.call (.meth m) [a, b]) v :=
  shows_two ha hb rfl (by simp [Fn.needs, fits, atom (Nat.le_refl 13) hs]) hv

theorem meth_three {m : String} {a b c : Ex} {s : List Char} {n : Int} {ch : Char} {v : Val} (ha : Is env a (.str s)) (hs : strength a = 13)
    (hb : Is env b (.int n)) (hc : Is env c (.str [ch])) (hv : callFill s m n ch = v) :
    Shows env (.call (.meth m) [a, b, c]) v :=
  shows_three ha hb hc rfl (by simp [Fn.needs, fits, atom (Nat.le_refl 13) hs]) (by simp) hv

theorem ljust_eq {s : List Char} {n : Int} {c : Char} (h : (s.length : Int) ≤ n) : ljust s n c = foxPadr s n.toNat c := by
  unfold ljust foxPadr
  rw [List.take_append, List.take_of_length_le (by omega), List.take_replicate]
  congr 2; omega

theorem rjust_eq {s : List Char} {n : Int} {c : Char} (h : (s.length : Int) ≤ n) : rjust s n c = foxPadl s n.toNat c := by
  unfold rjust foxPadl
  rw [List.take_of_length_le (by omega)]

theorem center_eq {s : List Char} {n : Int} {c : Char} (h : (s.length : Int) ≤ n) : Centred s n.toNat c (center s n c) := by
  have hl : centerLeft (n.toNat - s.length) n.toNat ≤ n.toNat - s.length := by unfold centerLeft; split <;> omega
  refine ⟨?_, centerLeft (n.toNat - s.length) n.toNat, n.toNat - s.length - centerLeft (n.toNat - s.length) n.toNat, ?_, ?_, ?_⟩
  · simp only [center, List.length_append, List.length_replicate]; omega
  · rw [List.take_of_length_le (by omega)]; rfl
  · unfold centerLeft at hl ⊢; split at hl <;> split <;> omega
  · unfold centerLeft at hl ⊢; split at hl <;> split <;> omega

theorem just_long {s : List Char} {n : Int} {c : Char} (h : n ≤ (s.length : Int)) :
    ljust s n c = s ∧ rjust s n c = s ∧ center s n c = s := by
  have : n.toNat - s.length = 0 := by omega
  simp [ljust, rjust, center, centerLeft, this]

end TextAux
open TextAux

/-! ## C87: padding -/

/-- C87 for PADR, PADL and PADC with and without a fill character, for texts that are not longer than
the length asked for.  Missing: longer texts (see `C87_long_fails`) and fill texts of several
characters. -/
theorem C87_pad_partial {a b c : Ex} {s : List Char} {n : Int} {ch : Char} (ha : Is env a (.str s)) (hs : strength a = 13)
    (hb : Is env b (.int n)) (hc : Is env c (.str [ch])) (h : (s.length : Int) ≤ n) :
    Shows env (.call (.meth (methodOf "padr")) [a, b]) (.str (foxPadr s n.toNat ' ')) ∧
    Shows env (.call (.meth (methodOf "padr")) [a, b, c]) (.str (foxPadr s n.toNat ch)) ∧
    Shows env (.call (.meth (methodOf "padl")) [a, b]) (.str (foxPadl s n.toNat ' ')) ∧
    Shows env (.call (.meth (methodOf "padl")) [a, b, c]) (.str (foxPadl s n.toNat ch)) ∧
    (∃ r, Shows env (.call (.meth (methodOf "padc")) [a, b]) (.str r) ∧ Centred s n.toNat ' ' r) ∧
    (∃ r, Shows env (.call (.meth (methodOf "padc")) [a, b, c]) (.str r) ∧ Centred s n.toNat ch r) := by
  refine ⟨meth_two ha hs hb ?_, meth_three ha hs hb hc ?_, meth_two ha hs hb ?_, meth_three ha hs hb hc ?_,
    ⟨_, meth_two ha hs hb ?_, center_eq h⟩, ⟨_, meth_three ha hs hb hc ?_, center_eq h⟩⟩
  · rw [← ljust_eq h]; rfl
  · rw [← ljust_eq h]; rfl
  · rw [← rjust_eq h]; rfl
  · rw [← rjust_eq h]; rfl
  · rfl
  · rfl

/-- `a` is `bc`, `b` is `abcbc`, `c` is 7, `d` is `*`. -/
def envT : String → Val := fun s =>
  if s = "a" then .str ['b', 'c'] else if s = "b" then .str ['a', 'b', 'c', 'b', 'c'] else if s = "d" then .str ['*'] else .int 7

example : Shows envT (.call (.meth (methodOf "padl")) [nb, nc, .name "d"]) (.str "**abcbc".toList) :=
  (C87_pad_partial (env := envT) (a := nb) (b := nc) (c := .name "d") (s := "abcbc".toList) (n := 7) (ch := '*')
    ⟨rfl, trivial, rfl⟩ rfl ⟨rfl, trivial, rfl⟩ ⟨rfl, trivial, rfl⟩ (by decide)).2.2.2.1

/-- C87 does not hold for texts that are too long: they are returned whole, so that the result does not
have the length asked for. -/
theorem C87_long_fails {a b : Ex} {s : List Char} {n : Int} (ha : Is env a (.str s)) (hs : strength a = 13)
    (hb : Is env b (.int n)) (h0 : 0 ≤ n) (h : n < (s.length : Int)) (f : String) (hf : f ∈ ["padr", "padl", "padc"]) :
    Shows env (.call (.meth (methodOf f)) [a, b]) (.str s) ∧ s.length ≠ n.toNat ∧
      (foxPadr s n.toNat ' ').length = n.toNat ∧ (foxPadl s n.toNat ' ').length = n.toNat := by
  obtain ⟨h1, h2, h3⟩ := just_long (s := s) (n := n) (c := ' ') (by omega)
  have hlen : s.length ≠ n.toNat := by omega
  refine ⟨?_, hlen, by simp [foxPadr], by simp only [foxPadl, List.length_append, List.length_replicate, List.length_take]; omega⟩
  simp only [List.mem_cons, List.not_mem_nil, or_false] at hf
  rcases hf with rfl | rfl | rfl
  · exact meth_two ha hs hb (by show Val.str (ljust s n ' ') = _; rw [h1])
  · exact meth_two ha hs hb (by show Val.str (rjust s n ' ') = _; rw [h2])
  · exact meth_two ha hs hb (by show Val.str (center s n ' ') = _; rw [h3])

example : Shows envT (.call (.meth (methodOf "padr")) [nb, .int 3]) (.str "abcbc".toList) ∧ foxPadr "abcbc".toList 3 ' ' = "abc".toList :=
  ⟨(C87_long_fails (env := envT) (a := nb) (b := .int 3) (s := "abcbc".toList) (n := 3)
    ⟨rfl, trivial, rfl⟩ rfl ⟨rfl, trivial, rfl⟩ (by decide) (by decide) "padr" (by decide)).1, by decide⟩

/-! ## C88: trimming -/

namespace TextAux

theorem isSpace_iff (c : Char) : isSpace c = true ↔ c = ' ' ∨ Other c := by
  have hc : (c = ' ') ↔ c.toNat = 32 :=
    ⟨fun h => h ▸ rfl, fun h => by
      apply Char.ext; apply UInt32.toNat_inj.mp; exact h⟩
  rw [hc]
  simp only [isSpace, Other, Bool.or_eq_true, Bool.and_eq_true, decide_eq_true_eq, List.mem_cons, List.not_mem_nil, or_false]
  omega

theorem dropWhile_split {α : Type} (p q : α → Bool) (h : ∀ c, q c = true → p c = true) :
    ∀ s : List α, s.dropWhile p = (s.dropWhile q).dropWhile p
  | [] => rfl
  | c :: s => by
    by_cases hq : q c = true
    · rw [List.dropWhile_cons_of_pos (h c hq), List.dropWhile_cons_of_pos hq]; exact dropWhile_split p q h s
    · rw [List.dropWhile_cons_of_neg hq]

theorem dropWhile_fix {α : Type} (p : α → Bool) (s : List α) : s.dropWhile p = s ↔ ∀ c, s.head? = some c → p c = false := by
  cases s with
  | nil => simp
  | cons c s =>
    by_cases h : p c = true
    · rw [List.dropWhile_cons_of_pos h]
      constructor
      · intro e
        have := congrArg List.length e
        have h2 := (List.dropWhile_sublist p (l := s)).length_le
        simp at this; omega
      · intro e; exact absurd h (by simp [e c rfl])
    · rw [List.dropWhile_cons_of_neg h]; simp [Bool.not_eq_true _ |>.mp h]

theorem blank_space : ∀ c : Char, (c == ' ') = true → isSpace c = true := by
  intro c h; rw [isSpace_iff]; exact .inl (by simpa using h)

theorem not_other {c : Char} (h : c ≠ ' ') : isSpace c = false ↔ ¬ Other c := by
  rw [← Bool.not_eq_true, isSpace_iff]; simp [h]

theorem dropWhile_all {α : Type} {p : α → Bool} {s : List α} (h : ∀ c ∈ s, p c = true) : s.dropWhile p = [] := by
  induction s with
  | nil => rfl
  | cons x s ih =>
    rw [List.dropWhile_cons_of_pos (h x List.mem_cons_self)]
    exact ih fun c hc => h c (List.mem_cons_of_mem _ hc)

theorem head_dropWhile {α : Type} {p : α → Bool} {s : List α} {c : α} (h : (s.dropWhile p).head? = some c) : p c = false := by
  induction s with
  | nil => simp at h
  | cons x s ih =>
    by_cases hp : p x = true
    · rw [List.dropWhile_cons_of_pos hp] at h; exact ih h
    · rw [List.dropWhile_cons_of_neg hp] at h
      simp at h; subst h; simpa using hp

theorem lstrip_iff (s : List Char) : lstrip s = foxLtrim s ↔ ∀ c, (foxLtrim s).head? = some c → ¬ Other c := by
  unfold lstrip foxLtrim
  rw [dropWhile_split isSpace (· == ' ') blank_space, dropWhile_fix]
  constructor
  · intro h c hc
    have := head_dropWhile hc
    exact (not_other (by simpa using this)).mp (h c hc)
  · intro h c hc
    have := head_dropWhile hc
    exact (not_other (by simpa using this)).mpr (h c hc)

theorem rstrip_iff (s : List Char) : rstrip s = foxRtrim s ↔ ∀ c, (foxRtrim s).getLast? = some c → ¬ Other c := by
  have := lstrip_iff s.reverse
  unfold lstrip foxLtrim at this
  unfold rstrip foxRtrim
  rw [List.reverse_inj, this, List.getLast?_reverse]

/-- Blanks are removed at least. -/
theorem rstrip_fox (s : List Char) : rstrip s = rstrip (foxRtrim s) := by
  unfold rstrip foxRtrim
  rw [List.reverse_reverse, ← dropWhile_split isSpace (· == ' ') blank_space]

theorem lstrip_fox (s : List Char) : lstrip s = lstrip (foxLtrim s) := by
  unfold lstrip foxLtrim
  rw [← dropWhile_split isSpace (· == ' ') blank_space]

theorem rstrip_le (s : List Char) : (rstrip s).length ≤ s.length := by
  unfold rstrip
  rw [List.length_reverse]
  have := (List.dropWhile_sublist isSpace (l := s.reverse)).length_le
  simpa using this

theorem foxRtrim_le (s : List Char) : (foxRtrim s).length ≤ s.length := by
  unfold foxRtrim
  rw [List.length_reverse]
  have := (List.dropWhile_sublist (· == ' ') (l := s.reverse)).length_le
  simpa using this

theorem foxRtrim_prefix (s : List Char) : ∃ t, s = foxRtrim s ++ t := by
  have := List.takeWhile_append_dropWhile (p := (· == ' ')) (l := s.reverse)
  refine ⟨(s.reverse.takeWhile (· == ' ')).reverse, ?_⟩
  have h := congrArg List.reverse this
  rw [List.reverse_append, List.reverse_reverse] at h
  exact h.symm

theorem foxRtrim_nil {s : List Char} (h : foxRtrim s = []) : ∀ c ∈ s, c = ' ' := by
  unfold foxRtrim at h
  rw [List.reverse_eq_nil_iff] at h
  intro c hc
  have h2 := List.takeWhile_append_dropWhile (p := (· == ' ')) (l := s.reverse)
  rw [h, List.append_nil] at h2
  have h3 := List.mem_reverse.mpr hc
  rw [← h2] at h3
  have all := List.all_takeWhile (p := (· == ' ')) (l := s.reverse)
  simpa using List.all_eq_true.mp all c h3

end TextAux

/-- C88 for LTRIM, exactly: the result is FoxPro's precisely if the first character behind the blanks
is not a tabulator, line end or the like. -/
theorem C88_ltrim_iff {a : Ex} {s : List Char} (ha : Is env a (.str s)) (hs : strength a = 13) :
    ∃ r, Shows env (.call (.meth (methodOf "ltrim")) [a]) (.str r) ∧
      (r = foxLtrim s ↔ ∀ c, (foxLtrim s).head? = some c → ¬ Other c) :=
  ⟨_, meth_one ha hs rfl, lstrip_iff s⟩

/-- C88 for RTRIM, exactly. -/
theorem C88_rtrim_iff {a : Ex} {s : List Char} (ha : Is env a (.str s)) (hs : strength a = 13) :
    ∃ r, Shows env (.call (.meth (methodOf "rtrim")) [a]) (.str r) ∧
      (r = foxRtrim s ↔ ∀ c, (foxRtrim s).getLast? = some c → ¬ Other c) :=
  ⟨_, meth_one ha hs rfl, rstrip_iff s⟩

/-- C88 for ALLTRIM, exactly: the result is FoxPro's precisely if that begins and ends with other
characters than tabulators, line ends and the like. -/
theorem C88_alltrim_iff {a : Ex} {s : List Char} (ha : Is env a (.str s)) (hs : strength a = 13) :
    ∃ r, Shows env (.call (.meth (methodOf "alltrim")) [a]) (.str r) ∧
      (r = foxAlltrim s ↔ (∀ c, (foxAlltrim s).head? = some c → ¬ Other c) ∧ ∀ c, (foxAlltrim s).getLast? = some c → ¬ Other c) := by
  refine ⟨strip s, meth_one ha hs rfl, ?_⟩
  unfold foxAlltrim strip
  constructor
  · intro h
    -- the left side is trimmed as by FoxPro, for otherwise the result would be shorter
    obtain ⟨t, ht⟩ := foxRtrim_prefix (foxLtrim s)
    have hl : lstrip s = foxLtrim s := by
      cases hx : foxRtrim (foxLtrim s) with
      | nil =>
        have := foxRtrim_nil hx
        cases hy : foxLtrim s with
        | nil => rw [lstrip_fox, hy]; rfl
        | cons c u =>
          have h1 := this c (by rw [hy]; exact List.mem_cons_self)
          have h2 : (c == ' ') = false := head_dropWhile (s := s) (p := (· == ' ')) (by
            show (foxLtrim s).head? = _; rw [hy]; rfl)
          simp [h1] at h2
      | cons c u =>
        rw [lstrip_fox]
        rw [hx] at ht
        show (foxLtrim s).dropWhile isSpace = foxLtrim s
        rw [dropWhile_fix]
        intro d hd
        rw [ht] at hd
        simp at hd; subst hd
        cases hsp : isSpace c with
        | false => rfl
        | true =>
          exfalso
          rw [hx, lstrip_fox, ht] at h
          have h3 : lstrip (c :: u ++ t) = lstrip (u ++ t) := by
            show List.dropWhile _ _ = List.dropWhile _ _
            rw [List.cons_append, List.dropWhile_cons_of_pos hsp]
          -- the result starts with a character that is not removed
          have h4 : ∀ d, (rstrip (lstrip (c :: u ++ t))).head? = some d → isSpace d = false := by
            intro d hd
            obtain ⟨w, hw⟩ : ∃ w, lstrip (c :: u ++ t) = rstrip (lstrip (c :: u ++ t)) ++ w := by
              have := List.takeWhile_append_dropWhile (p := isSpace) (l := (lstrip (c :: u ++ t)).reverse)
              refine ⟨((lstrip (c :: u ++ t)).reverse.takeWhile isSpace).reverse, ?_⟩
              have h := congrArg List.reverse this
              rw [List.reverse_append, List.reverse_reverse] at h
              exact h.symm
            have : (lstrip (c :: u ++ t)).head? = some d := by
              rw [hw, List.head?_append, hd]; rfl
            exact head_dropWhile this
          rw [h] at h4
          have := h4 c rfl
          rw [this] at hsp
          cases hsp
    refine ⟨fun c hc => (lstrip_iff s).mp hl c ?_, ?_⟩
    · rw [ht, List.head?_append, hc]; rfl
    · rw [hl] at h
      exact (rstrip_iff _).mp h
  · rintro ⟨h1, h2⟩
    obtain ⟨t, ht⟩ := foxRtrim_prefix (foxLtrim s)
    have hl : lstrip s = foxLtrim s := by
      rw [lstrip_iff]
      intro c hc
      cases hx : foxRtrim (foxLtrim s) with
      | nil =>
        have h3 := foxRtrim_nil hx c (List.mem_of_mem_head? hc)
        have h4 : (c == ' ') = false := head_dropWhile (s := s) (p := (· == ' ')) hc
        simp [h3] at h4
      | cons d u =>
        apply h1 c
        rw [ht, hx] at hc
        rw [hx]
        simpa using hc
    rw [hl]
    exact (rstrip_iff _).mpr h2

example : Is envT (.str " \tx ".toList) (.str " \tx ".toList) ∧ strip " \tx ".toList = ['x'] ∧ foxAlltrim " \tx ".toList = "\tx".toList :=
  ⟨⟨rfl, trivial, rfl⟩, by decide, by decide⟩

/-- C88 does not hold for texts that begin or end with a tabulator or line end, which is removed
together with all blanks and such characters behind it. -/
theorem C88_fails {a : Ex} {s : List Char} (c : Char) (hc : Other c) (ha : Is env a (.str (c :: s))) (hs : strength a = 13) :
    ∃ r, Shows env (.call (.meth (methodOf "ltrim")) [a]) (.str r) ∧ r.length < (foxLtrim (c :: s)).length := by
  have hb : c ≠ ' ' := by rintro rfl; revert hc; unfold Other; decide
  refine ⟨_, meth_one ha hs rfl, ?_⟩
  have h1 : foxLtrim (c :: s) = c :: s := by
    show List.dropWhile _ _ = _
    rw [List.dropWhile_cons_of_neg (by simpa using hb)]
  have h2 : lstrip (c :: s) = lstrip s := by
    show List.dropWhile _ _ = List.dropWhile _ _
    rw [List.dropWhile_cons_of_pos ((isSpace_iff c).mpr (.inr hc))]
  rw [h1, h2]
  have := (List.dropWhile_sublist isSpace (l := s)).length_le
  show (s.dropWhile isSpace).length < _
  simp; omega

example : Other '\t' ∧ Other '\n' := by unfold Other; decide

/-! ## C89: capital letters and character tests -/

namespace TextAux

theorem ascii_of_alpha {c : Char} (h : c.isAlpha = true) : c.toNat < 128 := by
  simp only [Char.isAlpha, Char.isUpper, Char.isLower, Bool.or_eq_true, Bool.and_eq_true, decide_eq_true_eq, ge_iff_le,
    UInt32.le_iff_toNat_le, Char.toNat] at h ⊢
  rcases h with ⟨_, h⟩ | ⟨_, h⟩
  · exact Nat.lt_of_le_of_lt h (by decide)
  · exact Nat.lt_of_le_of_lt h (by decide)

theorem case_table : ∀ n : Fin 128, (Char.ofNat n).isAlpha = true → (Char.ofNat n).toUpper ≠ (Char.ofNat n).toLower := by
  decide +kernel

theorem alpha_case {c : Char} (h : c.isAlpha = true) : c.toUpper ≠ c.toLower := by
  have := case_table ⟨c.toNat, ascii_of_alpha h⟩
  simp only [Char.ofNat_toNat] at this
  exact this h

theorem nonalpha_case {c : Char} (h : c.isAlpha = false) : c.toUpper = c ∧ c.toLower = c := by
  simp only [Char.isAlpha, Bool.or_eq_false_iff] at h
  constructor
  · have h2 := h.2
    simp only [Char.isLower, Bool.and_eq_false_iff, decide_eq_false_iff_not] at h2
    rw [Char.toUpper, dif_neg]
    rintro ⟨a, b⟩; rcases h2 with h2 | h2 <;> contradiction
  · have h1 := h.1
    simp only [Char.isUpper, decide_eq_false_iff_not] at h1
    rw [Char.toLower, dif_neg h1]

theorem alpha_nonblank {c : Char} (h : c.isAlpha = true) : (c != ' ') = true := by
  rw [bne_iff_ne]; rintro rfl; revert h; decide

theorem title_iff (s : List Char) : ∀ p : Option Char, titleFrom ((p.map Char.isAlpha).getD false) s =
    foxProper ((p.map (· != ' ')).getD false) s ↔
      (∀ q c, p = some q → s.head? = some c → c.isAlpha = true → q.isAlpha = true ∨ q = ' ') ∧
      ∀ a b q c, s = a ++ q :: c :: b → c.isAlpha = true → q.isAlpha = true ∨ q = ' ' := by
  induction s with
  | nil => intro p; simp [titleFrom, foxProper]
  | cons x s ih =>
    intro p
    have hi := ih (some x)
    simp only [Option.map_some, Option.getD_some] at hi
    rw [titleFrom, foxProper, List.cons.injEq, hi]
    have h1 : ((if (p.map Char.isAlpha).getD false then x.toLower else x.toUpper) =
        (if (p.map (· != ' ')).getD false then x.toLower else x.toUpper)) ↔
        ∀ q, p = some q → x.isAlpha = true → q.isAlpha = true ∨ q = ' ' := by
      cases p with
      | none => simp
      | some q =>
        simp only [Option.map_some, Option.getD_some, Option.some.injEq]
        by_cases hx : x.isAlpha = true
        · by_cases hq : q.isAlpha = true
          · rw [if_pos hq, if_pos (alpha_nonblank hq)]; simp [hq]
          · rw [if_neg hq]
            by_cases hb : q = ' '
            · subst hb; simp
            · rw [if_pos (by simpa using hb)]
              constructor
              · intro e; exact absurd e (alpha_case hx)
              · intro e; rcases e q rfl hx with h | h
                · exact absurd h hq
                · exact absurd h hb
        · have hn := nonalpha_case (Bool.not_eq_true _ |>.mp hx)
          rw [hn.1, hn.2]; simp [hx]
    rw [h1]
    constructor
    · rintro ⟨g1, g2, g3⟩
      refine ⟨fun q c hq hc => g1 q hq ∘ (by simp at hc; rw [hc]; exact id), fun a b q c e => ?_⟩
      cases a with
      | nil =>
        simp at e
        obtain ⟨rfl, rfl⟩ := e
        exact g2 x c rfl rfl
      | cons y a =>
        simp at e
        exact g3 a b q c e.2
    · rintro ⟨g1, g2⟩
      refine ⟨fun q hq => g1 q x hq rfl, fun q c hq hc => ?_, fun a b q c e => g2 (x :: a) b q c (by rw [e]; rfl)⟩
      cases hq
      obtain ⟨t, rfl⟩ : ∃ t, s = c :: t := by
        cases s with
        | nil => simp at hc
        | cons y t => simp at hc; exact ⟨t, by rw [hc]⟩
      exact g2 [] t x c rfl

end TextAux

/-- C89 for PROPER, exactly: the result is FoxPro's precisely if no letter follows a character that is
neither a letter nor a blank, such as an apostrophe, a hyphen or a digit. -/
theorem C89_proper_iff {a : Ex} {s : List Char} (ha : Is env a (.str s)) (hs : strength a = 13) :
    ∃ r, Shows env (.call (.meth (methodOf "proper")) [a]) (.str r) ∧
      (r = foxProper false s ↔ ∀ u v q c, s = u ++ q :: c :: v → c.isAlpha = true → q.isAlpha = true ∨ q = ' ') := by
  refine ⟨_, meth_one ha hs rfl, ?_⟩
  have := title_iff s none
  simp only [Option.map_none, Option.getD_none] at this
  rw [title, this]
  simp

example : title "o'neil of 3rd street".toList = "O'Neil Of 3Rd Street".toList ∧
    foxProper false "o'neil of 3rd street".toList = "O'neil Of 3rd Street".toList := by decide +kernel

/-- C89 does not hold for texts with such a letter: the letter becomes a capital one. -/
theorem C89_proper_fails {a : Ex} (u v : List Char) (q c : Char) (hq : q.isAlpha = false) (hb : q ≠ ' ') (hc : c.isAlpha = true)
    (ha : Is env a (.str (u ++ q :: c :: v))) (hs : strength a = 13) :
    ∃ r, Shows env (.call (.meth (methodOf "proper")) [a]) (.str r) ∧ r ≠ foxProper false (u ++ q :: c :: v) := by
  obtain ⟨r, h1, h2⟩ := C89_proper_iff ha hs
  refine ⟨r, h1, fun e => ?_⟩
  rcases h2.mp e u v q c rfl hc with h | h
  · rw [hq] at h; cases h
  · exact hb h

example : ('\'').isAlpha = false ∧ ('n').isAlpha = true := by decide

/-- C89: UPPER and LOWER change the letters of the other case and nothing else. -/
theorem C89_case {a : Ex} {s : List Char} (ha : Is env a (.str s)) (hs : strength a = 13) :
    ∃ u l, Shows env (.call (.meth (methodOf "upper")) [a]) (.str u) ∧ Shows env (.call (.meth (methodOf "lower")) [a]) (.str l) ∧
      u.length = s.length ∧ l.length = s.length ∧
      ∀ (i : Nat) (c : Char), s[i]? = some c → u[i]? = some c.toUpper ∧ l[i]? = some c.toLower := by
  refine ⟨_, _, meth_one ha hs rfl, meth_one ha hs rfl, by simp, by simp, fun i c h => ?_⟩
  simp [h]

example : Shows envT (.call (.meth (methodOf "upper")) [nb]) (.str "ABCBC".toList) :=
  meth_one (env := envT) (a := nb) (s := "abcbc".toList) ⟨rfl, trivial, rfl⟩ rfl (by decide)

/-- C89: ISALPHA, ISDIGIT, ISLOWER and ISUPPER test the first character, and are false for the empty
text. -/
theorem C89_tests {a : Ex} {s : List Char} (ha : Is env a (.str s)) (hs : strength a = 13) :
    Shows env (.call (.first "isalpha") [a]) (.bool (s.head?.any Char.isAlpha)) ∧
    Shows env (.call (.first "isdigit") [a]) (.bool (s.head?.any Char.isDigit)) ∧
    Shows env (.call (.first "islower") [a]) (.bool (s.head?.any Char.isLower)) ∧
    Shows env (.call (.first "isupper") [a]) (.bool (s.head?.any Char.isUpper)) := by
  have hcut : Py.slice s none (some 1) = s.take 1 := Py.slice_to s 1
  have low : ∀ c : Char, (c.isAlpha && !c.isUpper) = c.isLower := by
    intro c
    simp only [Char.isAlpha]
    cases hu : c.isUpper <;> cases hl : c.isLower <;> simp
    simp only [Char.isUpper, Char.isLower, Bool.and_eq_true, decide_eq_true_eq, ge_iff_le, UInt32.le_iff_toNat_le] at hu hl
    have h1 := hu.2; have h2 := hl.1
    have h3 : 'Z'.val.toNat < 'a'.val.toNat := by decide
    omega
  have upp : ∀ c : Char, (c.isAlpha && !c.isLower) = c.isUpper := by
    intro c
    have := low c
    simp only [Char.isAlpha] at this ⊢
    cases hu : c.isUpper <;> cases hl : c.isLower <;> simp_all
  have key : ∀ m v, callPlain (s.take 1) m = v → Shows env (.call (.first m) [a]) v := by
    intro m v hv
    refine shows_one ha rfl (by simp [Fn.needs, fits, atom (Nat.le_refl 13) hs]) ?_
    show callMeth (Py.slice s none (some 1)) m [] = v
    rw [hcut]; exact hv
  refine ⟨key _ _ ?_, key _ _ ?_, key _ _ ?_, key _ _ ?_⟩
  · show Val.bool (isalpha _) = _
    cases s <;> simp [isalpha]
  · show Val.bool (isdigit _) = _
    cases s <;> simp [isdigit]
  · show Val.bool (islower _) = _
    cases s with
    | nil => rfl
    | cons c s => simp [islower, low]
  · show Val.bool (isupper _) = _
    cases s with
    | nil => rfl
    | cons c s => simp [isupper, upp]

example : Shows envT (.call (.first "islower") [nb]) (.bool true) :=
  (C89_tests (env := envT) (a := nb) (s := "abcbc".toList) ⟨rfl, trivial, rfl⟩ rfl).2.2.1

/-! ## C90: tests of values -/

/-- C90 for EMPTY, of every value that is not a text of blanks, tabulators and line ends. -/
theorem C90_empty_partial {a : Ex} {v : Val} (ha : Is env a v) (hs : 5 ≤ strength a) (hv : Proper v)
    (hb : ∀ s, v = .str s → foxEmpty v = true → s = []) : Shows env (.call .empty [a]) (.bool (foxEmpty v)) := by
  refine shows_one ha rfl (by simp [Fn.needs, fits, hs]) ?_
  cases v with
  | str s =>
    cases s with
    | nil => rfl
    | cons c s =>
      show Val.bool false = _
      cases h : foxEmpty (.str (c :: s)) with
      | false => rfl
      | true => cases hb _ rfl h
  | int n =>
    show Val.bool (!(n != 0)) = _
    simp [foxEmpty, bne]
  | bool b => rfl
  | none => rfl
  | date n => rfl
  | delta n => cases hv
  | obj s => cases hv
  | meth s m => cases hv
  | err => cases hv

example : Shows envT (.call .empty [.bin .sub nc (.int 7)]) (.bool true) :=
  C90_empty_partial (v := .int 0) ⟨rfl, by simp [Typed, nc], rfl⟩ (by decide) trivial (by simp)

/-- C90 does not hold for texts of blanks, tabulators and line ends: EMPTY is false, and EVL returns the
text. -/
theorem C90_blank_fails {a b : Ex} {s : List Char} {w : Val} (ha : Is env a (.str s)) (hb : Is env b w) (hs : 5 ≤ strength a)
    (hw : 1 ≤ strength b) (h : foxEmpty (.str s) = true) (hne : s ≠ []) :
    Shows env (.call .empty [a]) (.bool false) ∧ Shows env (.call .evl [a, b]) (.str s) := by
  constructor
  · refine shows_one ha rfl (by simp [Fn.needs, fits, hs]) ?_
    cases s with
    | nil => exact absurd rfl hne
    | cons c s => rfl
  · refine shows_two ha hb rfl (by simp [Fn.needs, fits, hw]; omega) ?_
    cases s with
    | nil => exact absurd rfl hne
    | cons c s => rfl

example : foxEmpty (.str "  ".toList) = true := by decide

/-- C90 for EVL: the first value unless it is empty, then the second.  Missing: blank texts and .NULL.
(which EVL keeps in FoxPro, see `C90_evl_null_fails`). -/
theorem C90_evl_partial {a b : Ex} {v w : Val} (ha : Is env a v) (hb : Is env b w) (hs : 1 ≤ strength a) (hw : 1 ≤ strength b)
    (hv : Proper v) (hnull : v ≠ .none) (hbl : ∀ s, v = .str s → foxEmpty v = true → s = []) :
    Shows env (.call .evl [a, b]) (if foxEmpty v then w else v) := by
  refine shows_two ha hb rfl (by simp [Fn.needs, fits, hs, hw]) ?_
  cases v with
  | str s =>
    cases s with
    | nil => rfl
    | cons c s =>
      cases h : foxEmpty (.str (c :: s)) with
      | false => rfl
      | true => cases hbl _ rfl h
  | int n =>
    show (if (n != 0) = true then Val.int n else w) = _
    by_cases hn : n = 0 <;> simp [foxEmpty, hn]
  | bool b => cases b <;> rfl
  | none => exact absurd rfl hnull
  | date n => rfl
  | delta n => cases hv
  | obj s => cases hv
  | meth s m => cases hv
  | err => cases hv

example : Shows envT (.call .evl [.int 0, na]) (.str ['b', 'c']) :=
  C90_evl_partial (v := .int 0) (w := .str ['b', 'c']) ⟨rfl, trivial, rfl⟩ ⟨rfl, trivial, rfl⟩ (by decide) (by decide) trivial (by simp) (by simp)

/-- C90 does not hold for EVL of .NULL., which is the second value although .NULL. is not empty. -/
theorem C90_evl_null_fails {a b : Ex} {w : Val} (ha : Is env a .none) (hb : Is env b w) (hs : 1 ≤ strength a) (hw : 1 ≤ strength b) :
    Shows env (.call .evl [a, b]) w ∧ foxEmpty .none = false :=
  ⟨shows_two ha hb rfl (by simp [Fn.needs, fits, hs, hw]) rfl, rfl⟩

/-- C90 for NVL and ISNULL: they test for .NULL. and nothing else. -/
theorem C90_null {a b : Ex} {v w : Val} (ha : Is env a v) (hb : Is env b w) (hs : 5 ≤ strength a) (hv : Proper v) :
    Shows env (.call .nvl [a, b]) (if v = .none then w else v) ∧ Shows env (.call .isnull [a]) (.bool (decide (v = .none))) := by
  constructor
  · refine shows_two ha hb rfl (by simp [Fn.needs, fits, hs]) ?_
    cases v <;> first | rfl | cases hv
  · refine shows_one ha rfl (by simp [Fn.needs, fits, hs]) ?_
    cases v <;> first | rfl | cases hv

example : Shows envT (.call .nvl [.null, na]) (.str ['b', 'c']) ∧ Shows envT (.call .isnull [nc]) (.bool false) :=
  ⟨(C90_null (env := envT) (v := .none) (w := .str ['b', 'c']) (a := .null) (b := na) ⟨rfl, trivial, rfl⟩ ⟨rfl, trivial, rfl⟩ (by decide) trivial).1,
    (C90_null (env := envT) (v := .int 7) (w := .int 7) (a := nc) (b := nc) ⟨rfl, trivial, rfl⟩ ⟨rfl, trivial, rfl⟩ (by decide) trivial).2⟩

/-- C90: IIF is the second value if the first is true, else the third; BETWEEN of numbers is the test
of both bounds. -/
theorem C90_iif_between {c x y n lo hi : Ex} {b : Bool} {v w : Val} {k l h : Int} (hc : Is env c (.bool b)) (hx : Is env x v) (hy : Is env y w)
    (hn : Is env n (.int k)) (hlo : Is env lo (.int l)) (hhi : Is env hi (.int h))
    (s1 : 1 ≤ strength c) (s2 : 1 ≤ strength x) (s3 : 5 ≤ strength n) (s4 : 5 ≤ strength lo) (s5 : 5 ≤ strength hi) :
    Shows env (.call .iif [c, x, y]) (if b then v else w) ∧
    Shows env (.call .between [n, lo, hi]) (.bool (decide (l ≤ k ∧ k ≤ h))) := by
  constructor
  · exact shows_three hc hx hy rfl (by simp [Fn.needs, fits, s1, s2]) (by simp) rfl
  · refine shows_three hn hlo hhi rfl (by simp [Fn.needs, fits, s3, s4, s5]) (by simp) ?_
    show (if truth (.bool (!decide (k < l))) = true then Val.bool (!decide (h < k)) else .bool (!decide (k < l))) = _
    have e1 : (!decide (k < l)) = decide (l ≤ k) := by rw [Bool.eq_iff_iff]; simp
    have e2 : (!decide (h < k)) = decide (k ≤ h) := by rw [Bool.eq_iff_iff]; simp
    rw [e1, e2]
    by_cases h1 : l ≤ k <;> by_cases h2 : k ≤ h <;> simp [truth, h1, h2]

example : Shows envT (.call .between [nc, .int 7, .int 9]) (.bool true) :=
  (C90_iif_between (env := envT) (c := .bool true) (x := na) (y := na) (n := nc) (lo := .int 7) (hi := .int 9) (b := true) (v := .str ['b', 'c'])
    (w := .str ['b', 'c']) (k := 7) (l := 7) (h := 9) ⟨rfl, trivial, rfl⟩ ⟨rfl, trivial, rfl⟩ ⟨rfl, trivial, rfl⟩ ⟨rfl, trivial, rfl⟩ ⟨rfl, trivial, rfl⟩
    ⟨rfl, trivial, rfl⟩ (by decide) (by decide) (by decide) (by decide) (by decide)).2

/-- C90 for ISBLANK: true of texts of blanks.  Missing: texts of tabulators and line ends and .NULL.,
of which ISBLANK is true here. -/
theorem C90_isblank_partial (v : Val) (hv : Proper v) (hnull : v ≠ .none) (ho : ∀ s, v = .str s → ∀ c ∈ s, ¬ Other c) :
    isblank v = foxBlank v := by
  cases v with
  | str s =>
    have hsp : ∀ c ∈ s, isSpace c = (c == ' ') := by
      intro c hc
      rw [Bool.eq_iff_iff, isSpace_iff]
      simp [ho s rfl c hc]
    show (strip s).isEmpty = s.all (· == ' ')
    cases h : s.all (· == ' ') with
    | true =>
      have : ∀ c ∈ s, isSpace c = true := fun c hc => by rw [hsp c hc]; exact List.all_eq_true.mp h c hc
      have h2 : lstrip s = [] := dropWhile_all this
      rw [strip, h2]; rfl
    | false =>
      obtain ⟨c, hc, hcb⟩ := List.all_eq_false.mp h
      have hnot : isSpace c = false := by rw [hsp c hc]; simpa using hcb
      have mem_l : ∀ t : List Char, c ∈ t → c ∈ t.dropWhile isSpace := by
        intro t
        induction t with
        | nil => simp
        | cons x t ih =>
          intro hm
          by_cases hx : isSpace x = true
          · rw [List.dropWhile_cons_of_pos hx]
            rcases List.mem_cons.mp hm with rfl | hm
            · rw [hnot] at hx; cases hx
            · exact ih hm
          · rw [List.dropWhile_cons_of_neg hx]; exact hm
      have : c ∈ strip s := by
        unfold strip rstrip
        exact List.mem_reverse.mpr (mem_l _ (List.mem_reverse.mpr (mem_l s hc)))
      cases hst : strip s with
      | nil => rw [hst] at this; cases this
      | cons _ _ => rfl
  | int n => rfl
  | bool b => rfl
  | none => exact absurd rfl hnull
  | date n => rfl
  | delta n => cases hv
  | obj s => cases hv
  | meth s m => cases hv
  | err => cases hv

example : isblank (.str "   ".toList) = true ∧ isblank (.str " x ".toList) = false ∧ isblank (.int 0) = false := by decide

/-! ## C91: MOD and SIGN -/

/-- C91: MOD(a, b) has the sign of `b`, is smaller, and differs from `a` by a multiple of `b`; there is
only one such number. -/
theorem C91_mod {a b : Ex} {x y : Int} (ha : Is env a (.int x)) (hb : Is env b (.int y)) (h1 : 10 ≤ strength a) (h2 : 11 ≤ strength b)
    (hy : y ≠ 0) : ∃ r, Shows env (.call .mod [a, b]) (.int r) ∧ y ∣ x - r ∧ (0 < y → 0 ≤ r ∧ r < y) ∧ (y < 0 → y < r ∧ r ≤ 0) := by
  refine ⟨Int.fmod x y, shows_two ha hb rfl (by simp [Fn.needs, fits, h1, h2]) ?_, ?_, fun h => ?_, fun h => ?_⟩
  · show binInt .mod x y = _
    simp [binInt, hy]
  · refine ⟨Int.fdiv x y, ?_⟩
    have := Int.fmod_add_mul_fdiv x y
    omega
  · exact ⟨Int.fmod_nonneg_of_pos x h, Int.fmod_lt_of_pos x h⟩
  · have e : Int.fmod x y = -(Int.fmod (-x) (-y)) := by
      rw [Int.neg_fmod_neg]; omega
    have g1 := Int.fmod_nonneg_of_pos (-x) (show 0 < -y by omega)
    have g2 := Int.fmod_lt_of_pos (-x) (show 0 < -y by omega)
    omega

example : Shows envT (.call .mod [.minus nc, .int 4]) (.int 1) :=
  shows_two (env := envT) (a := .minus nc) (b := .int 4) (x := .int (-7)) (y := .int 4) ⟨rfl, trivial, rfl⟩ ⟨rfl, trivial, rfl⟩ rfl (by decide) (by decide)

/-- C91: SIGN is 1, 0 or -1 as the number is positive, zero or negative. -/
theorem C91_sign {a : Ex} {x : Int} (ha : Is env a (.int x)) (h1 : 5 ≤ strength a) :
    Shows env (.call .sign [a]) (.int (if x > 0 then 1 else if x = 0 then 0 else -1)) := by
  refine shows_one ha rfl (by simp [Fn.needs, fits, h1]) ?_
  show (if truth (.bool (decide (x > 0))) = true then Val.int 1 else if truth (.bool (decide (x < 0))) = true then .int (-1) else .int 0) = _
  simp only [truth, decide_eq_true_eq]
  by_cases g1 : x > 0
  · simp [g1]
  · by_cases g2 : x = 0
    · simp [g2]
    · have : x < 0 := by omega
      simp [this, g1, g2]

example : Shows envT (.call .sign [.minus nc]) (.int (-1)) :=
  C91_sign (env := envT) (a := .minus nc) (x := -7) ⟨rfl, trivial, rfl⟩ (by decide)

end Props
