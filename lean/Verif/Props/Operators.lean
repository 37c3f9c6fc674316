import Verif.Props.Inline
/-!
# Operators on texts, dates and logical values

C96 (comparison of texts), C97 (`+`, `-` and `$` on texts), C98 (comparison and
arithmetic of dates) and C165 (comparison of logical values): the value of the Python expression that the operation becomes, for
operands that are themselves arbitrary expressions.
-/
namespace Props
open PyExpr FoxExpr Expr Props.ExprAux Props.PyExprAux PyVal Props.InlineAux
open Spec.Strings (OccursAt)

variable {env : String → Val}

namespace OperatorSpec

/-- Texts are the same after blanks are added to the shorter one. -/
def EqualPadded (s t : List Char) : Prop :=
  s ++ List.replicate (t.length - s.length) ' ' = t ++ List.replicate (s.length - t.length) ' '

/-- FoxPro's `=` of texts: with SET EXACT ON the shorter text is filled with blanks, with SET
EXACT OFF the comparison ends where the text on the right ends. -/
def FoxEqual (exact : Bool) (s t : List Char) : Prop := if exact then EqualPadded s t else t <+: s

instance (exact : Bool) (s t : List Char) : Decidable (FoxEqual exact s t) := by
  unfold FoxEqual EqualPadded; split <;> infer_instance

/-- The order of texts by the first character in which they differ. -/
def Before (s t : List Char) : Prop :=
  ∃ p a b s' t', s = p ++ a :: s' ∧ t = p ++ b :: t' ∧ a.toNat < b.toNat

/-- FoxPro's `-` of texts: the blanks at the end of the left one are moved behind the right one. -/
def foxMinus (s t : List Char) : List Char :=
  let r := (s.reverse.dropWhile (· == ' ')).reverse
  r ++ t ++ List.replicate (s.length - r.length) ' '

/-- What an operand of an arithmetic operator is like: it does not need parentheses that are not
written, and is no logical expression and no ADDBS(). -/
structure Operands (o : AOp) (a b : Ex) : Prop where
  left : fitsLeft o a = true
  right : fitsRight o b = true
  logic : isLogic a = false
  path : plainPath a = true
  noDir : ∀ x, a ≠ .addbs x

end OperatorSpec

open OperatorSpec

namespace OperatorAux

theorem shows_cmp {a b : Ex} {x y : Val} (o : FCmp) (ha : Is env a x) (hb : Is env b y) (h1 : 5 ≤ strength a) (h2 : 5 ≤ strength b) :
    Shows env (.cmp o a b) (cmp o.py x y) := by
  obtain ⟨p1, t1, v1⟩ := ha
  obtain ⟨p2, t2, v2⟩ := hb
  have := C71_expression_partial (py_laws env) (.cmp o a b) (by rw [Plain, p1, p2]; simp [h1, h2]) ⟨t1, t2⟩
  rwa [fox, v1, v2] at this

theorem is_bin {a b : Ex} {x y : Val} {o : AOp} (ha : Is env a x) (hb : Is env b y) (h : Operands o a b) :
    Is env (.bin o a b) (bin o.py x y) := by
  obtain ⟨p1, t1, v1⟩ := ha
  obtain ⟨p2, t2, v2⟩ := hb
  refine ⟨by rw [Plain, p1, p2, h.left, h.right, h.logic, h.path]; simp, ⟨t1, t2, fun _ ⟨x, hx⟩ => absurd hx (h.noDir x)⟩, ?_⟩
  rw [fox, v1, v2]; rfl

theorem is_shows {e : Ex} {v : Val} (h : Is env e v) : Shows env e v := by
  have := C71_expression_partial (py_laws env) e h.1 h.2.1
  rwa [h.2.2] at this

theorem shows_det {e : Ex} {v w : Val} (h : Shows env e v) (h' : Shows env e w) : v = w := by
  obtain ⟨p, hp, rfl⟩ := h
  obtain ⟨q, hq, rfl⟩ := h'
  rw [C71_unique hp hq]

theorem shows_iff {e : Ex} {v w : Val} (h : Shows env e v) : Shows env e w ↔ v = w :=
  ⟨fun h' => shows_det h h', fun hv => hv ▸ h⟩

theorem ltStr_before {s t : List Char} (hlen : s.length = t.length) : ltStr s t = true ↔ Before s t := by
  induction s generalizing t with
  | nil =>
    cases t with
    | cons _ _ => cases hlen
    | nil => exact ⟨nofun, fun ⟨p, a, b, s', t', h, _⟩ => by simp at h⟩
  | cons c s ih =>
    cases t with
    | nil => cases hlen
    | cons d t =>
      have hl : s.length = t.length := by simpa using hlen
      rw [ltStr]
      by_cases hcd : c = d
      · rw [if_pos hcd, ih hl]
        constructor
        · rintro ⟨p, a, b, s', t', rfl, rfl, hab⟩
          exact ⟨c :: p, a, b, s', t', rfl, by rw [hcd]; rfl, hab⟩
        · rintro ⟨p, a, b, s', t', h1, h2, hab⟩
          cases p with
          | nil =>
            cases h1; cases h2
            rw [hcd] at hab; omega
          | cons x p =>
            cases h1; cases h2
            exact ⟨p, a, b, s', t', rfl, rfl, hab⟩
      · rw [if_neg hcd]
        constructor
        · intro h
          exact ⟨[], c, d, s, t, rfl, rfl, by simpa using h⟩
        · rintro ⟨p, a, b, s', t', h1, h2, hab⟩
          cases p with
          | nil => cases h1; cases h2; simpa using hab
          | cons x p => cases h1; cases h2; exact absurd rfl hcd

end OperatorAux

open OperatorAux

/-! ## C96: comparison of texts -/

/-- `a` is `ab`, `b` is `abc`, `c` is `ab` and two blanks, `d` is the 738000th day, `e` the 737990th. -/
def envO : String → Val := fun s =>
  if s = "a" then .str "ab".toList else if s = "b" then .str "abc".toList else if s = "c" then .str "ab  ".toList
  else if s = "d" then .date 738000 else if s = "e" then .date 737990 else .int 3

/-- C96: `==` is true exactly of the same texts. -/
theorem C96_exact {a b : Ex} {s t : List Char} (ha : Is env a (.str s)) (hb : Is env b (.str t)) (h1 : 5 ≤ strength a) (h2 : 5 ≤ strength b) :
    Shows env (.cmp .exact a b) (.bool (decide (s = t))) := by
  have := shows_cmp .exact ha hb h1 h2
  have e : cmp (FCmp.py .exact) (.str s) (.str t) = .bool (decide (s = t)) := by
    show Val.bool (decide (Val.str s = Val.str t)) = _
    simp
  rwa [e] at this

example : Shows envO (.cmp .exact na nb) (.bool false) :=
  C96_exact (env := envO) (a := na) (b := nb) (s := "ab".toList) (t := "abc".toList) ⟨rfl, trivial, by decide⟩ ⟨rfl, trivial, by decide⟩ (by decide) (by decide)

/-- C96: `=` has FoxPro's value exactly if the texts are the same or not equal for FoxPro: with EXACT
OFF a text and a proper beginning of it, with EXACT ON texts that differ in blanks at the end, are
equal in FoxPro and not here. -/
theorem C96_equal_iff {a b : Ex} {s t : List Char} (exact : Bool) (ha : Is env a (.str s)) (hb : Is env b (.str t))
    (h1 : 5 ≤ strength a) (h2 : 5 ≤ strength b) :
    Shows env (.cmp .eq a b) (.bool (decide (FoxEqual exact s t))) ↔ (FoxEqual exact s t → s = t) := by
  have := shows_cmp .eq ha hb h1 h2
  have e : cmp (FCmp.py .eq) (.str s) (.str t) = .bool (decide (s = t)) := by
    show Val.bool (decide (Val.str s = Val.str t)) = _
    simp
  rw [e] at this
  rw [shows_iff this]
  have hrefl : s = t → FoxEqual exact s t := by
    rintro rfl
    unfold FoxEqual EqualPadded
    split
    · simp
    · exact List.prefix_refl s
  simp only [Val.bool.injEq, decide_eq_decide]
  exact ⟨fun h => h.mpr, fun h => ⟨hrefl, h⟩⟩

example : Shows envO (.cmp .eq na nb) (.bool false) := by
  have := (C96_equal_iff (env := envO) (a := na) (b := nb) (s := "ab".toList) (t := "abc".toList) false ⟨rfl, trivial, by decide⟩
    ⟨rfl, trivial, by decide⟩ (by decide) (by decide)).mpr (by decide)
  rwa [show decide (FoxEqual false "ab".toList "abc".toList) = false from by decide] at this

/-- C96: the same for `<>`. -/
theorem C96_differs_iff {a b : Ex} {s t : List Char} (exact : Bool) (ha : Is env a (.str s)) (hb : Is env b (.str t))
    (h1 : 5 ≤ strength a) (h2 : 5 ≤ strength b) :
    Shows env (.cmp .ne a b) (.bool (!decide (FoxEqual exact s t))) ↔ (FoxEqual exact s t → s = t) := by
  rw [← C96_equal_iff exact ha hb h1 h2, shows_iff (shows_cmp .eq ha hb h1 h2), shows_iff (shows_cmp .ne ha hb h1 h2)]
  show Val.bool (decide (Val.str s ≠ Val.str t)) = _ ↔ Val.bool (decide (Val.str s = Val.str t)) = _
  by_cases h : s = t <;> simp [h]

example : Shows envO (.cmp .ne nb na) (.bool true) ∧ ¬ Shows envO (.cmp .ne nb na) (.bool (!decide (FoxEqual false "abc".toList "ab".toList))) := by
  constructor
  · have := (C96_differs_iff (env := envO) (a := nb) (b := na) (s := "abc".toList) (t := "ab".toList) true ⟨rfl, trivial, by decide⟩
      ⟨rfl, trivial, by decide⟩ (by decide) (by decide)).mpr (by decide)
    simpa [FoxEqual, EqualPadded] using this
  · intro h
    have := (C96_differs_iff (env := envO) (a := nb) (b := na) (s := "abc".toList) (t := "ab".toList) false ⟨rfl, trivial, by decide⟩
      ⟨rfl, trivial, by decide⟩ (by decide) (by decide)).mp h (by decide)
    exact absurd this (by decide)

/-- C96 fails with EXACT OFF for every text and every longer text that begins with it, and with
EXACT ON for every text and the same text with blanks behind it. -/
theorem C96_equal_fails {a b : Ex} {s r : List Char} (hr : r ≠ []) (ha : Is env a (.str (s ++ r))) (hb : Is env b (.str s))
    (h1 : 5 ≤ strength a) (h2 : 5 ≤ strength b) :
    Shows env (.cmp .eq a b) (.bool false) ∧ FoxEqual false (s ++ r) s ∧ (r = List.replicate r.length ' ' → FoxEqual true (s ++ r) s) := by
  refine ⟨?_, List.prefix_append s r, fun h => ?_⟩
  · have := shows_cmp .eq ha hb h1 h2
    have e : cmp (FCmp.py .eq) (.str (s ++ r)) (.str s) = .bool false := by
      show Val.bool (decide (Val.str (s ++ r) = Val.str s)) = _
      simp [hr]
    rwa [e] at this
  · show EqualPadded _ _
    unfold EqualPadded
    have e1 : s.length - (s ++ r).length = 0 := by simp
    have e2 : (s ++ r).length - s.length = r.length := by simp
    rw [e1, e2, ← h]; simp

example : Shows envO (.cmp .eq nc na) (.bool false) ∧ FoxEqual true "ab  ".toList "ab".toList := by
  have := C96_equal_fails (env := envO) (a := nc) (b := na) (s := "ab".toList) (r := "  ".toList) (by decide) ⟨rfl, trivial, by decide⟩
    ⟨rfl, trivial, by decide⟩ (by decide) (by decide)
  exact ⟨this.1, this.2.2 (by decide)⟩

/-- C96 for `<`, `>`, `<=` and `>=`: texts of one length are compared by the first character in which they
differ.  Missing: texts of different lengths, for which FoxPro's order depends on SET EXACT. -/
theorem C96_order_partial {a b : Ex} {s t : List Char} (ha : Is env a (.str s)) (hb : Is env b (.str t)) (h1 : 5 ≤ strength a) (h2 : 5 ≤ strength b)
    (hlen : s.length = t.length) :
    (Shows env (.cmp .lt a b) (.bool true) ↔ Before s t) ∧ (Shows env (.cmp .gt a b) (.bool true) ↔ Before t s) ∧
    (Shows env (.cmp .le a b) (.bool true) ↔ ¬ Before t s) ∧ (Shows env (.cmp .ge a b) (.bool true) ↔ ¬ Before s t) := by
  rw [shows_iff (shows_cmp .lt ha hb h1 h2), shows_iff (shows_cmp .gt ha hb h1 h2), shows_iff (shows_cmp .le ha hb h1 h2),
    shows_iff (shows_cmp .ge ha hb h1 h2), ← ltStr_before hlen, ← ltStr_before hlen.symm]
  show (Val.bool (ltStr s t) = _ ↔ _) ∧ (Val.bool (ltStr t s) = _ ↔ _) ∧ (Val.bool (!ltStr t s) = _ ↔ _) ∧ (Val.bool (!ltStr s t) = _ ↔ _)
  simp

example : Shows envO (.cmp .lt (.str "axz".toList) (.str "aya".toList)) (.bool true) :=
  (C96_order_partial (env := envO) (a := .str "axz".toList) (b := .str "aya".toList) (s := "axz".toList) (t := "aya".toList) ⟨rfl, trivial, rfl⟩
    ⟨rfl, trivial, rfl⟩ (by decide) (by decide) (by decide)).1.mpr ⟨['a'], 'x', 'y', ['z'], ['a'], by decide, by decide, by decide⟩

/-! ## C97: `+`, `-` and `$` on texts -/

/-- C97: `+` puts one text behind the other. -/
theorem C97_plus {a b : Ex} {s t : List Char} (ha : Is env a (.str s)) (hb : Is env b (.str t)) (h : Operands .add a b) :
    Shows env (.bin .add a b) (.str (s ++ t)) := is_shows (is_bin ha hb h)

example : Shows envO (.bin .add nc na) (.str "ab  ab".toList) :=
  C97_plus (env := envO) (a := nc) (b := na) (s := "ab  ".toList) (t := "ab".toList) ⟨rfl, trivial, by decide⟩ ⟨rfl, trivial, by decide⟩
    ⟨rfl, rfl, rfl, rfl, nofun⟩

/-- C97 fails for `-` of all texts: FoxPro moves the blanks at the end of the left text to the end, the
converted program stops with an error. -/
theorem C97_minus_fails {a b : Ex} {s t : List Char} (ha : Is env a (.str s)) (hb : Is env b (.str t)) (h : Operands .sub a b) :
    Shows env (.bin .sub a b) .err ∧ ¬ Shows env (.bin .sub a b) (.str (foxMinus s t)) := by
  have := is_shows (is_bin ha hb h)
  exact ⟨this, fun h' => nomatch shows_det this h'⟩

example : Shows envO (.bin .sub nc na) .err ∧ foxMinus "ab  ".toList "ab".toList = "abab  ".toList :=
  ⟨(C97_minus_fails (env := envO) (a := nc) (b := na) (s := "ab  ".toList) (t := "ab".toList) ⟨rfl, trivial, by decide⟩ ⟨rfl, trivial, by decide⟩
    ⟨rfl, rfl, rfl, rfl, nofun⟩).1, by decide⟩

/-- C97: `$` is true exactly if the left text is found somewhere in the right one, and false else. -/
theorem C97_within {a b : Ex} {s t : List Char} (ha : Is env a (.str s)) (hb : Is env b (.str t)) (h1 : 5 ≤ strength a) (h2 : 5 ≤ strength b) :
    (Shows env (.cmp .within a b) (.bool true) ↔ ∃ k, OccursAt s t k) ∧ (Shows env (.cmp .within a b) (.bool false) ↔ ∀ k, ¬ OccursAt s t k) := by
  rw [shows_iff (shows_cmp .within ha hb h1 h2), shows_iff (shows_cmp .within ha hb h1 h2)]
  show (Val.bool (Model.Strings.findIdx t s).isSome = _ ↔ _) ∧ (Val.bool (Model.Strings.findIdx t s).isSome = _ ↔ _)
  cases h : Model.Strings.findIdx t s with
  | none =>
    have := Model.Strings.findIdx_none h
    simp [this]
  | some k =>
    have := (Model.Strings.findIdx_some h).1
    simp only [Option.isSome_some, true_iff]
    exact ⟨⟨k, this⟩, ⟨nofun, fun hn => absurd this (hn k)⟩⟩

example : Shows envO (.cmp .within (.str "bc".toList) nb) (.bool true) :=
  (C97_within (env := envO) (a := .str "bc".toList) (b := nb) (s := "bc".toList) (t := "abc".toList) ⟨rfl, trivial, rfl⟩ ⟨rfl, trivial, by decide⟩
    (by decide) (by decide)).1.mpr ⟨1, [], by decide⟩

/-! ## C98: dates -/

/-- C98: dates are compared by their day. -/
theorem C98_compare {a b : Ex} {m n : Int} (ha : Is env a (.date m)) (hb : Is env b (.date n)) (h1 : 5 ≤ strength a) (h2 : 5 ≤ strength b) :
    Shows env (.cmp .eq a b) (.bool (decide (m = n))) ∧ Shows env (.cmp .exact a b) (.bool (decide (m = n))) ∧
    Shows env (.cmp .ne a b) (.bool (decide (m ≠ n))) ∧ Shows env (.cmp .lt a b) (.bool (decide (m < n))) ∧
    Shows env (.cmp .le a b) (.bool (decide (m ≤ n))) ∧ Shows env (.cmp .gt a b) (.bool (decide (n < m))) ∧
    Shows env (.cmp .ge a b) (.bool (decide (n ≤ m))) := by
  have e1 : (!decide (n < m)) = decide (m ≤ n) := by rw [Bool.eq_iff_iff]; simp
  have e2 : (!decide (m < n)) = decide (n ≤ m) := by rw [Bool.eq_iff_iff]; simp
  have q1 : Val.bool (decide (Val.date m = Val.date n)) = .bool (decide (m = n)) := by simp
  have q2 : Val.bool (decide (Val.date m ≠ Val.date n)) = .bool (decide (m ≠ n)) := by simp
  refine ⟨?_, ?_, ?_, shows_cmp .lt ha hb h1 h2, ?_, shows_cmp .gt ha hb h1 h2, ?_⟩
  · rw [← q1]; exact shows_cmp .eq ha hb h1 h2
  · rw [← q1]; exact shows_cmp .exact ha hb h1 h2
  · rw [← q2]; exact shows_cmp .ne ha hb h1 h2
  · rw [← e1]; exact shows_cmp .le ha hb h1 h2
  · rw [← e2]; exact shows_cmp .ge ha hb h1 h2

example : Shows envO (.cmp .lt (.name "e") (.name "d")) (.bool true) :=
  (C98_compare (env := envO) (a := .name "e") (b := .name "d") (m := 737990) (n := 738000) ⟨rfl, trivial, by decide⟩ ⟨rfl, trivial, by decide⟩
    (by decide) (by decide)).2.2.2.1

/-- C98 fails for every date and every number of days: adding days to a date, in either order, and
subtracting them is an error. -/
theorem C98_days_fail {a b : Ex} {m n : Int} (ha : Is env a (.date m)) (hb : Is env b (.int n)) :
    (Operands .add a b → Shows env (.bin .add a b) .err) ∧ (Operands .add b a → Shows env (.bin .add b a) .err) ∧
    (Operands .sub a b → Shows env (.bin .sub a b) .err) :=
  ⟨fun h => is_shows (is_bin ha hb h), fun h => is_shows (is_bin hb ha h), fun h => is_shows (is_bin ha hb h)⟩

example : Shows envO (.bin .add (.name "d") (.int 1)) .err :=
  (C98_days_fail (env := envO) (a := .name "d") (b := .int 1) (m := 738000) (n := 1) ⟨rfl, trivial, by decide⟩ ⟨rfl, trivial, rfl⟩).1
    ⟨rfl, rfl, rfl, rfl, nofun⟩

/-- C98 fails for the difference of any two dates: it is a number of days in FoxPro, and here something that is
equal to no number, that cannot be compared with a number, and to which no number can be added. -/
theorem C98_difference_fails {a b c : Ex} {m n k : Int} (ha : Is env a (.date m)) (hb : Is env b (.date n)) (hc : Is env c (.int k))
    (h : Operands .sub a b) (h3 : 5 ≤ strength c) :
    Shows env (.cmp .eq (.bin .sub a b) c) (.bool false) ∧ Shows env (.cmp .lt (.bin .sub a b) c) .err ∧
    Shows env (.cmp .gt (.bin .sub a b) c) .err ∧ (Operands .add (.bin .sub a b) c → Shows env (.bin .add (.bin .sub a b) c) .err) := by
  have hd : Is env (.bin .sub a b) (.delta (m - n)) := is_bin ha hb h
  have hs : 5 ≤ strength (.bin .sub a b) := by simp [strength, AOp.level, AOp.py, PyExpr.level]
  exact ⟨shows_cmp .eq hd hc hs h3, shows_cmp .lt hd hc hs h3, shows_cmp .gt hd hc hs h3, fun h => is_shows (is_bin hd hc h)⟩

-- `d - e = 10` is false although the dates are ten days apart
example : Shows envO (.cmp .eq (.bin .sub (.name "d") (.name "e")) (.int 10)) (.bool false) :=
  (C98_difference_fails (env := envO) (a := .name "d") (b := .name "e") (c := .int 10) (m := 738000) (n := 737990) (k := 10) ⟨rfl, trivial, by decide⟩
    ⟨rfl, trivial, by decide⟩ ⟨rfl, trivial, rfl⟩ ⟨rfl, rfl, rfl, rfl, nofun⟩ (by decide)).1

/-- C98: the difference of two dates may be added to a date, which gives the date that is as many days
later, and differences may be compared.  Missing: everything else that can be done with a number of days. -/
theorem C98_shift_partial {a b c d : Ex} {m n k l : Int} (ha : Is env a (.date m)) (hb : Is env b (.date n)) (hc : Is env c (.date k))
    (hd : Is env d (.date l)) (h : Operands .sub a b) (h' : Operands .sub c d) (hr : 1 ≤ m - n + k ∧ m - n + k ≤ 3652059) :
    (Operands .add (.bin .sub a b) c → Shows env (.bin .add (.bin .sub a b) c) (.date (m - n + k))) ∧
    Shows env (.cmp .lt (.bin .sub a b) (.bin .sub c d)) (.bool (decide (m - n < k - l))) ∧
    Shows env (.cmp .eq (.bin .sub a b) (.bin .sub c d)) (.bool (decide (m - n = k - l))) := by
  have h1 : Is env (.bin .sub a b) (.delta (m - n)) := is_bin ha hb h
  have h2 : Is env (.bin .sub c d) (.delta (k - l)) := is_bin hc hd h'
  have s1 : 5 ≤ strength (.bin .sub a b) := by simp [strength, AOp.level, AOp.py, PyExpr.level]
  have s2 : 5 ≤ strength (.bin .sub c d) := by simp [strength, AOp.level, AOp.py, PyExpr.level]
  refine ⟨fun ho => ?_, shows_cmp .lt h1 h2 s1 s2, ?_⟩
  · have := is_shows (is_bin h1 hc ho)
    have e : bin (AOp.py .add) (.delta (m - n)) (.date k) = .date (m - n + k) := by
      show mkDate (m - n + k) = _
      rw [mkDate, if_pos hr]
    rwa [e] at this
  · have q : Val.bool (decide (Val.delta (m - n) = Val.delta (k - l))) = .bool (decide (m - n = k - l)) := by simp
    rw [← q]; exact shows_cmp .eq h1 h2 s1 s2

example : Shows envO (.bin .add (.bin .sub (.name "d") (.name "e")) (.name "d")) (.date 738010) :=
  (C98_shift_partial (env := envO) (a := .name "d") (b := .name "e") (c := .name "d") (d := .name "e") (m := 738000) (n := 737990) (k := 738000) (l := 737990)
    ⟨rfl, trivial, by decide⟩ ⟨rfl, trivial, by decide⟩ ⟨rfl, trivial, by decide⟩ ⟨rfl, trivial, by decide⟩ ⟨rfl, rfl, rfl, rfl, nofun⟩
    ⟨rfl, rfl, rfl, rfl, nofun⟩ (by decide)).1 ⟨rfl, rfl, rfl, rfl, nofun⟩

/-! ## C165: comparison of logical values -/

/-- Names with logical values and a number. -/
def envLog : String → Val := fun s => if s = "t" then .bool true else if s = "f" then .bool false else .int 1

/-- C165: logical values are equal if they are the same, and `.F.` comes before `.T.`. -/
theorem C165_compare {a b : Ex} {x y : Bool} (ha : Is env a (.bool x)) (hb : Is env b (.bool y)) (h1 : 5 ≤ strength a) (h2 : 5 ≤ strength b) :
    (Shows env (.cmp .eq a b) (.bool true) ↔ x = y) ∧ (Shows env (.cmp .exact a b) (.bool true) ↔ x = y) ∧
    (Shows env (.cmp .ne a b) (.bool true) ↔ x ≠ y) ∧ (Shows env (.cmp .lt a b) (.bool true) ↔ x = false ∧ y = true) ∧
    (Shows env (.cmp .gt a b) (.bool true) ↔ x = true ∧ y = false) ∧ (Shows env (.cmp .le a b) (.bool true) ↔ x = false ∨ y = true) ∧
    (Shows env (.cmp .ge a b) (.bool true) ↔ x = true ∨ y = false) ∧
    ∀ o : FCmp, o ≠ .within → ∃ r, Shows env (.cmp o a b) (.bool r) := by
  refine ⟨?_, ?_, ?_, ?_, ?_, ?_, ?_, fun o ho => ?_⟩
  · rw [shows_iff (shows_cmp .eq ha hb h1 h2)]; cases x <;> cases y <;> decide
  · rw [shows_iff (shows_cmp .exact ha hb h1 h2)]; cases x <;> cases y <;> decide
  · rw [shows_iff (shows_cmp .ne ha hb h1 h2)]; cases x <;> cases y <;> decide
  · rw [shows_iff (shows_cmp .lt ha hb h1 h2)]; cases x <;> cases y <;> decide
  · rw [shows_iff (shows_cmp .gt ha hb h1 h2)]; cases x <;> cases y <;> decide
  · rw [shows_iff (shows_cmp .le ha hb h1 h2)]; cases x <;> cases y <;> decide
  · rw [shows_iff (shows_cmp .ge ha hb h1 h2)]; cases x <;> cases y <;> decide
  · have := shows_cmp o ha hb h1 h2
    cases o <;> first | exact absurd rfl ho | exact ⟨_, this⟩

example : Shows envLog (.cmp .lt (.name "f") (.name "t")) (.bool true) :=
  (C165_compare (env := envLog) (a := .name "f") (b := .name "t") (x := false) (y := true) ⟨rfl, trivial, by decide⟩ ⟨rfl, trivial, by decide⟩
    (by decide) (by decide)).2.2.2.1.mpr ⟨rfl, rfl⟩

/-- C165 fails for a logical value and a number: FoxPro reports that the types do not match, here `.T.` is taken for 1 and
`.F.` for 0, so that every comparison but `$` gives a logical value. -/
theorem C165_number_fails {a b : Ex} {x : Bool} {n : Int} (ha : Is env a (.bool x)) (hb : Is env b (.int n)) (h1 : 5 ≤ strength a)
    (h2 : 5 ≤ strength b) :
    (Shows env (.cmp .eq a b) (.bool true) ↔ (x = true ∧ n = 1) ∨ (x = false ∧ n = 0)) ∧
    (Shows env (.cmp .lt a b) (.bool true) ↔ (x = true ∧ 1 < n) ∨ (x = false ∧ 0 < n)) ∧
    ∀ o : FCmp, o ≠ .within → ¬ Shows env (.cmp o a b) .err := by
  refine ⟨?_, ?_, fun o ho h => ?_⟩
  · rw [shows_iff (shows_cmp .eq ha hb h1 h2)]
    show Val.bool (decide (Val.int (if x then 1 else 0) = Val.int n)) = _ ↔ _
    cases x <;> simp <;> omega
  · rw [shows_iff (shows_cmp .lt ha hb h1 h2)]
    show Val.bool (decide ((if x then 1 else 0) < n)) = _ ↔ _
    cases x <;> simp
  · have := shows_cmp o ha hb h1 h2
    cases o <;> first | exact absurd rfl ho | exact nomatch shows_det this h

example : Shows envLog (.cmp .eq (.name "t") (.name "n")) (.bool true) :=
  (C165_number_fails (env := envLog) (a := .name "t") (b := .name "n") (x := true) (n := 1) ⟨rfl, trivial, by decide⟩ ⟨rfl, trivial, by decide⟩
    (by decide) (by decide)).1.mpr (.inl ⟨rfl, rfl⟩)

end Props
