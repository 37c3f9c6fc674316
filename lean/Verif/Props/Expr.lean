import Verif.Lemmas.Expr
import Verif.Lemmas.Strings
import Verif.Model.PyVal
/-!
# Converted expressions

C38 (arithmetic), C39 (conditions), C40 (signs), C45 (compound assignment), C53
(string constants and paths) and C71 (functions converted in place).
-/
namespace Props
open PyExpr FoxExpr Expr Props.ExprAux Props.PyExprAux PyVal

namespace ExprAux

/-- The values of the concrete model satisfy the laws that the general theorems assume. -/
theorem py_laws (env : String → Val) : Laws (py env) where
  truthBool := fun b => rfl
  raisesBool := fun b => rfl
  raisesStr := fun b => rfl
  nameTrue := rfl
  nameFalse := rfl
  strNotBool := nofun
  negInt := fun _ => rfl
  addInt := fun _ _ => rfl
  subInt := fun _ _ => rfl
  addStr := fun _ _ => rfl
  mulSpace := fun n => by
    show Val.str (Py.repeatN [' '] n) = _
    unfold Py.repeatN
    congr 1
    induction n.toNat with
    | zero => rfl
    | succ k ih => rw [List.replicate_succ, List.flatten_cons, ih]; rfl
  numberInt := fun _ => rfl
  numberBool := fun _ => rfl
  chrInt := fun n h => by
    show (if n.isValidChar then Val.str [Char.ofNat n] else .err) = _
    rw [if_pos h]; rfl
  slice0 := fun s j => by
    cases s <;> cases j <;> rfl
  joinMore := fun _ _ _ _ => rfl

/-- A name that is no logical value and no number of its own. -/
theorem py_relative (env : String → Val) {s : List Char} (h : s.head? ≠ some '/') : Relative (py env) (.str s) := by
  intro x
  show join2 x (.str s) = bin .add (join2 x (.str [])) (.str s)
  cases x <;> try rfl
  rename_i a
  simp only [join2, if_neg h]
  by_cases ha : a = [] ∨ a.getLast? = some '/'
  · simp [ha, bin, only]
  · simp [ha, bin, only]

end ExprAux

variable {V : Type} {A : Alg V}

section
def env3 : String → Val := fun s => if s = "a" then .int 2 else if s = "b" then .int 3 else if s = "c" then .int 4 else .err

def na : Ex := .name "a"
def nb : Ex := .name "b"
def nc : Ex := .name "c"
end

/-! ## C71: every expression -/

/-- C71: the text of an expression of any nesting depth, with arithmetic,
comparison and logical operators and functions converted in place, is read by
Python as an expression with the value that FoxPro gives to the source, over every
algebra of values that satisfies the few laws of constant folding. `Plain` excludes
the operands around which the converter omits parentheses although Python would need
them (see the `_fails` theorems). -/
theorem C71_expression_partial (L : Laws A) (e : Ex) (hp : Plain e = true) (ht : Typed A e) :
    ∃ p, Reads (text e) p ∧ eval A p = fox A e :=
  (conv_sound L e hp ht false).den.reads

-- `MOD(a * b, -c) - a`
example : Plain (.bin .sub (.call .mod [.bin .mul na nb, .minus nc]) na) = true ∧ Typed (py env3) (.bin .sub (.call .mod [.bin .mul na nb, .minus nc]) na) ∧
    fox (py env3) (.bin .sub (.call .mod [.bin .mul na nb, .minus nc]) na) = .int (-4) := by
  refine ⟨by decide +kernel, by simp [Typed, Typeds, na, nb, nc], by decide +kernel⟩

-- `a = 2 OR b / 0 > c`: the right operand has no value and is not needed
example : Plain (.or (.cmp .eq na (.int 2)) (.cmp .gt (.bin .div nb (.int 0)) nc)) = true ∧
    Typed (py env3) (.or (.cmp .eq na (.int 2)) (.cmp .gt (.bin .div nb (.int 0)) nc)) ∧
    fox (py env3) (.cmp .gt (.bin .div nb (.int 0)) nc) = .err ∧
    fox (py env3) (.or (.cmp .eq na (.int 2)) (.cmp .gt (.bin .div nb (.int 0)) nc)) = .bool true := by
  have h1 : fox (py env3) (.cmp .eq na (.int 2)) = .bool true := by decide +kernel
  have h2 : fox (py env3) (.cmp .gt (.bin .div nb (.int 0)) nc) = .err := by decide +kernel
  refine ⟨by decide +kernel, ⟨⟨trivial, trivial⟩, ⟨⟨trivial, trivial, fun _ ⟨_, h⟩ => (by cases h)⟩, trivial⟩, .inl ⟨true, h1⟩, ?_, ?_⟩, h2, by decide +kernel⟩
  · intro s h; rw [h2] at h; cases h
  · intro h; rw [h1] at h; cases h

/-- What is read is determined by the text. -/
theorem C71_unique {ts : List Tok} {p q : PyE} (hp : Reads ts p) (hq : Reads ts q) : p = q := reads_det hp hq

example : Reads [.name "a", .bin .sub, .name "b", .bin .mul, .name "c"] (.bin .sub (.name "a") (.bin .mul (.name "b") (.name "c"))) := ⟨20, rfl⟩

/-! ## C38: arithmetic -/

namespace ExprAux

theorem arith_notLogic : ∀ e, Arith e = true → isLogic e = false
  | .name _, _ => rfl
  | .int _, _ => rfl
  | .sub e, h => arith_notLogic e h
  | .bin _ _ _, _ => rfl

theorem arith_path {e : Ex} (h : Arith e = true) : plainPath e = true := by
  cases e <;> first | rfl | cases h

theorem arith_strength : ∀ e, Arith e = true → 9 ≤ strength e
  | .name _, _ => by simp [strength]
  | .int _, _ => by simp [strength]
  | .sub e, h => arith_strength e h
  | .bin o _ _, _ => by cases o <;> simp [strength, AOp.level, AOp.py, level]

theorem arith_level {e : Ex} (h : Arith e = true) (hs : isSub e = false) :
    strength e = if gLevel e = 3 then 9 else if gLevel e = 5 then 10 else if gLevel e = 6 then 12 else 13 := by
  cases e <;> first | rfl | cases h | cases hs | skip
  rename_i o l r
  cases o <;> first | rfl | (simp [Arith] at h)

theorem arith_gLevel {e : Ex} (h : Arith e = true) : gLevel e = 3 ∨ gLevel e = 5 ∨ gLevel e = 6 ∨ gLevel e = 7 := by
  cases e <;> first | (simp [gLevel]; done) | cases h | skip
  rename_i o l r
  cases o <;> first | (simp [gLevel]; done) | (simp [Arith] at h)

theorem arith_pow {e : Ex} (h : gLevel e = 6) : isPow e = true := by
  cases e <;> first | (simp [gLevel] at h; done) | skip
  rename_i o l r
  cases o <;> first | rfl | (simp [gLevel] at h)

def opG : AOp → Nat
  | .add => 3
  | .sub => 3
  | .mod => 4
  | .mul => 5
  | .div => 5
  | .pow => 6

theorem gLevel_bin (o : AOp) (l r : Ex) : gLevel (.bin o l r) = opG o := by cases o <;> rfl

theorem arith_plain : ∀ e, Arith e = true → Parsed e = true → Plain e = true
  | .name _, _, _ => by simp [Plain]
  | .int _, _, _ => by simp [Plain]
  | .sub e, h, hp => by rw [Plain]; rw [Parsed] at hp; exact arith_plain e h hp
  | .bin o l r, h, hp => by
    have h' : (o ≠ .mod ∧ Arith l = true) ∧ Arith r = true := by simpa [Arith] using h
    have hp' : ((Parsed l = true ∧ Parsed r = true) ∧ gLevel (.bin o l r) ≤ gLevel l) ∧ gLevel (.bin o l r) < gLevel r := by
      simpa [Parsed] using hp
    obtain ⟨⟨ho, al⟩, ar⟩ := h'
    obtain ⟨⟨⟨pl, pr⟩, gl⟩, gr⟩ := hp'
    rw [gLevel_bin] at gl gr
    have hl := arith_plain l al pl
    have hr := arith_plain r ar pr
    have kl := arith_gLevel al
    have kr := arith_gLevel ar
    have fl : fitsLeft o l = true := by
      cases hs : isSub l with
      | true => cases o <;> simp [fitsLeft, hs]
      | false =>
        have hv := arith_level al hs
        cases o <;> simp only [opG] at gl <;> first | exact absurd rfl ho | skip
        case pow =>
          rcases kl with k | k | k | k
          · omega
          · omega
          · simp [fitsLeft, arith_pow k]
          · rw [k] at hv; simp [fitsLeft, hv]
        all_goals
          have : strength l = 9 ∧ gLevel l = 3 ∨ 10 ≤ strength l := by
            rcases kl with k | k | k | k <;> rw [k] at hv <;> simp at hv <;> simp [hv, k]
          simp only [fitsLeft, hs, Bool.false_or, AOp.level, AOp.py, level]
          apply decide_eq_true
          omega
    have fr : fitsRight o r = true := by
      cases hs : isSub r with
      | true => simp [fitsRight, hs]
      | false =>
        have hv := arith_level ar hs
        have hv' : (gLevel r = 3 ∧ strength r = 9) ∨ (gLevel r = 5 ∧ strength r = 10) ∨ (gLevel r = 6 ∧ strength r = 12) ∨
            (gLevel r = 7 ∧ strength r = 13) := by
          rcases kr with k | k | k | k <;> rw [k] at hv <;> simp at hv <;> omega
        simp only [fitsRight, hs, Bool.false_or, decide_eq_true_eq]
        cases o <;> simp only [opG] at gr <;> first | exact absurd rfl ho | skip
        all_goals
          simp only [AOp.py, rightLevel, level]
          omega
    rw [Plain, hl, hr, fl, fr, arith_notLogic l al, arith_path al]
    simp

theorem arith_typed : ∀ e, Arith e = true → Typed A e
  | .name _, _ => by simp [Typed]
  | .int _, _ => by simp [Typed]
  | .sub e, h => by rw [Typed]; exact arith_typed e h
  | .bin o l r, h => by
    have h' : (o ≠ .mod ∧ Arith l = true) ∧ Arith r = true := by simpa [Arith] using h
    rw [Typed]
    refine ⟨arith_typed l h'.1.2, arith_typed r h'.2, fun _ hx => ?_⟩
    obtain ⟨x, rfl⟩ := hx
    cases h'.1.2

end ExprAux

/-- C38: an arithmetic expression of names, numbers, `+ - * / ^` and parentheses, as
the grammar groups it, denotes in Python the same tree of operations. -/
theorem C38_arithmetic_partial (L : Laws A) (e : Ex) (ha : Arith e = true) (hp : Parsed e = true) :
    ∃ p, Reads (text e) p ∧ eval A p = fox A e :=
  C71_expression_partial L e (arith_plain e ha hp) (arith_typed e ha)

section
/-- `a`, `b`, `c` are 2, 3, 4. -/

-- `a ^ b ^ c - (a - (b - c)) * b` is of that form
example : Arith (.bin .sub (.bin .pow (.bin .pow na nb) nc) (.bin .mul (.sub (.bin .sub na (.sub (.bin .sub nb nc)))) nb)) = true ∧
    Parsed (.bin .sub (.bin .pow (.bin .pow na nb) nc) (.bin .mul (.sub (.bin .sub na (.sub (.bin .sub nb nc)))) nb)) = true := by
  decide +kernel
-- and its text has the parentheses
example : text (.bin .pow (.bin .pow na nb) nc) =
    [.lp, .name "a", .bin .pow, .name "b", .rp, .bin .pow, .name "c"] := by decide +kernel

/-- The code for `e` has the value of `e`. -/
def Keeps (env : String → Val) (e : Ex) : Prop := ∃ p, Reads (text e) p ∧ eval (py env) p = fox (py env) e

theorem ExprAux.keeps_iff {env : String → Val} {e : Ex} {p : PyE} (h : Reads (text e) p) :
    Keeps env e ↔ eval (py env) p = fox (py env) e :=
  ⟨fun ⟨q, hq, hv⟩ => by rw [reads_det h hq]; exact hv, fun hv => ⟨p, h, hv⟩⟩

variable {env : String → Val} {a b c : String}

section
variable {env : String → Val} {a b c : String}

/-- C38 does not hold for a sign in front of parentheses: `-(a + b)` becomes `-a + b`, which
is right for no `b` but 0. -/
theorem C38_minus_iff {x y : Int} (ha : (py env).name a = .int x) (hb : (py env).name b = .int y) :
    Keeps env (.minus (.sub (.bin .add (.name a) (.name b)))) ↔ y = 0 := by
  rw [keeps_iff (p := .bin .add (.neg (.name a)) (.name b)) ⟨20, rfl⟩]
  show bin .add ((py env).neg ((py env).name a)) ((py env).name b) = (py env).neg (bin .add ((py env).name a) ((py env).name b)) ↔ _
  rw [ha, hb]
  show Val.int (-x + y) = Val.int (-(x + y)) ↔ _
  rw [Val.int.injEq]
  omega

/-- Nor for `a % b * c`, which FoxPro groups as `a % (b * c)` and Python as `(a % b) * c`. -/
theorem C38_modulo_fails {x y z : Int} (ha : (py env).name a = .int x) (hb : (py env).name b = .int y) (hc : (py env).name c = .int z) (hx : 0 < x)
    (hy : x < y) (hz : 1 < z) : ¬ Keeps env (.bin .mod (.name a) (.bin .mul (.name b) (.name c))) := by
  rw [keeps_iff (p := .bin .mul (.bin .mod (.name a) (.name b)) (.name c)) ⟨20, rfl⟩]
  show ¬ bin .mul (bin .mod ((py env).name a) ((py env).name b)) ((py env).name c) = bin .mod ((py env).name a) (bin .mul ((py env).name b) ((py env).name c))
  rw [ha, hb, hc]
  have hyz : y ≤ y * z := by
    have := Int.mul_le_mul_of_nonneg_left (show 1 ≤ z by omega) (show 0 ≤ y by omega)
    rwa [Int.mul_one] at this
  have h1 : bin .mod (.int x) (.int y) = .int x := by
    show (if y = 0 then Val.err else .int (Int.fmod x y)) = _
    rw [if_neg (by omega), Int.fmod_eq_emod_of_nonneg _ (by omega), Int.emod_eq_of_lt (by omega) hy]
  have h2 : bin .mod (.int x) (bin .mul (.int y) (.int z)) = .int x := by
    show (if y * z = 0 then Val.err else .int (Int.fmod x (y * z))) = _
    rw [if_neg (by omega), Int.fmod_eq_emod_of_nonneg _ (by omega), Int.emod_eq_of_lt (by omega) (by omega)]
  rw [h1, h2]
  show ¬ Val.int (x * z) = Val.int x
  rw [Val.int.injEq]
  have := Int.mul_lt_mul_of_pos_left hz hx
  omega

example : Keeps env3 (.minus (.sub (.bin .add na nb))) ↔ (3 : Int) = 0 := C38_minus_iff (x := 2) (by decide +kernel) (by decide +kernel)
example : ¬ Keeps env3 (.bin .mod na (.bin .mul nb nc)) :=
  C38_modulo_fails (x := 2) (y := 3) (z := 4) (by decide +kernel) (by decide +kernel) (by decide +kernel) (by decide) (by decide) (by decide)

/-- Nor for `-a ^ b`, which the grammar groups as `(-a) ^ b` and Python as `-(a ^ b)`: it is
right for odd `b` only. -/
theorem C38_power_iff {x : Int} {n : Nat} (ha : (py env).name a = .int x) (hb : (py env).name b = .int n) (hx : x ≠ 0) :
    Keeps env (.bin .pow (.minus (.name a)) (.name b)) ↔ n % 2 = 1 := by
  rw [keeps_iff (p := .neg (.bin .pow (.name a) (.name b))) ⟨20, rfl⟩]
  show (py env).neg (bin .pow ((py env).name a) ((py env).name b)) = bin .pow ((py env).neg ((py env).name a)) ((py env).name b) ↔ _
  rw [ha, hb]
  show Val.int (-(x ^ n)) = Val.int ((-x) ^ n) ↔ _
  have hpos : x ^ n ≠ 0 := Int.pow_ne_zero hx
  have key : ∀ k : Nat, (-x) ^ (2 * k) = x ^ (2 * k) := by
    intro k
    rw [Int.pow_mul, Int.pow_mul]
    congr 1
    rw [Int.pow_succ, Int.pow_succ, Int.pow_succ, Int.pow_succ, Int.pow_zero, Int.pow_zero, Int.one_mul, Int.one_mul, Int.neg_mul_neg]
  rw [Val.int.injEq]
  rcases Nat.mod_two_eq_zero_or_one n with h | h
  · have hn : n = 2 * (n / 2) := by omega
    rw [hn] at hpos ⊢
    rw [key]
    constructor
    · intro h; omega
    · intro h; omega
  · have hn : n = 2 * (n / 2) + 1 := by omega
    rw [hn, Int.pow_succ, Int.pow_succ, key]
    constructor
    · intro _; omega
    · intro _; rw [Int.mul_neg]

example : ¬ Keeps env3 (.bin .pow (.minus na) nc) :=
  fun h => absurd ((C38_power_iff (x := 2) (n := 4) (by decide +kernel) (by decide +kernel) (by decide)).mp h) (by decide)
end
end

/-! ## C39: conditions -/

namespace ExprAux

theorem arith_notStr (sk : Bool) : ∀ e, Arith e = true → ∀ s, conv sk (clean e) ≠ .str s
  | .name _, _ => by simp [clean, conv]
  | .int _, _ => by simp [clean, conv]
  | .sub e, h => by rw [clean_sub, conv_mkSub]; exact arith_notStr sk e h
  | .bin o l r, h => by
    have h' : (o ≠ .mod ∧ Arith l = true) ∧ Arith r = true := by simpa [Arith] using h
    intro s
    have hop : opCode .add (parens (clean l) (conv sk (clean l))) (parens (clean r) (conv sk (clean r))) ≠ .str s := by
      unfold opCode
      split
      · rename_i a b h1 h2
        unfold parens at h1
        split at h1
        · cases h1
        · exact absurd h1 (arith_notStr sk l h'.1.2 _)
      · nofun
    cases o
    case add =>
      rw [clean, conv]
      · split
        · nofun
        · exact hop
      · nofun
    all_goals
      rw [clean, conv]
      · simp [opCode]
      all_goals nofun

theorem noNot {l : Ex} (h : isNot l = false) : core l = l ∧ odd l = false := by
  cases l <;> first | exact ⟨rfl, rfl⟩ | cases h

theorem den_noNot (L : Laws A) (sk : Bool) {o : FCmp} {l r : Ex} (hr : Operand A r) (hn : isNot l = false) (hl : Operand A (core l))
    (hb : IsLogical A (A.cmp o.py (fox A (core l)) (fox A r))) :
    Den A 3 (pyRepr (conv sk (clean l)) ++ .cmp o.py :: pyRepr (conv sk (clean r)))
      (A.ofBool (odd l != A.truth (A.cmp o.py (fox A (core l)) (fox A r)))) := by
  rw [(noNot hn).2]
  rw [(noNot hn).1] at hl hb ⊢
  have := Den.cmp (o := o.py) ((conv_sound L l hl.1 hl.2.1 sk).den.weak hl.2.2) ((conv_sound L r hr.1 hr.2.1 sk).den.weak hr.2.2)
  obtain ⟨b, hb⟩ := hb
  rw [hb] at this
  rw [hb, L.truthBool]
  have hx : (false != b) = b := by cases b <;> rfl
  rw [hx]
  exact this.weak (by decide)

theorem wrapNot (sk : Bool) {l : Ex} (hs : isNot l = false → ∀ s, conv sk (clean l) ≠ .str s) (hop : Operand A (core l)) :
    wrap 2 (conv sk (clean l)) = pyRepr (conv sk (clean l)) := by
  cases hn : isNot l with
  | true =>
    cases l <;> first | cases hn | skip
    simp [clean, conv, wrap, pyRepr]
  | false =>
    refine wrap_plain (hs hn) ?_ 2
    rw [conv_op]
    rw [(noNot hn).1] at hop
    cases hlog : isLogic l with
    | false => rfl
    | true =>
      have := conv_prec sk l hlog
      have h3 : (conv sk (clean l)).prec ≤ 3 := by cases conv sk (clean l) <;> simp [Py.prec]
      have := hop.2.2
      omega

/-- The left operand of a comparison with the NOTs in front of it. -/
theorem den_nots (L : Laws A) (sk : Bool) {o : FCmp} {r : Ex} (hr : Operand A r) : ∀ l, Operand A (core l) →
    (isNot l = true → Arith (core l) = true) → IsLogical A (A.cmp o.py (fox A (core l)) (fox A r)) →
    Den A 3 (pyRepr (conv sk (clean l)) ++ .cmp o.py :: pyRepr (conv sk (clean r)))
      (A.ofBool (odd l != A.truth (A.cmp o.py (fox A (core l)) (fox A r))))
  | .not l, hl, ha, hb => by
    rw [core] at hl ha hb ⊢
    have ha := ha rfl
    have hrec := den_nots L sk hr l hl (fun _ => ha) hb
    have hw : pyRepr (conv sk (clean (.not l))) = .not :: pyRepr (conv sk (clean l)) := by
      rw [clean, conv, pyRepr, wrapNot sk ?_ hl]
      intro hn s
      rw [(noNot hn).1] at ha
      exact arith_notStr sk l ha s
    rw [hw]
    have := Den.not hrec
    rw [not_bool L] at this
    rw [odd]
    generalize A.truth _ = t at this ⊢
    have he : (!(odd l != t)) = ((!odd l) != t) := by cases odd l <;> cases t <;> rfl
    rw [he] at this
    exact this
  | .name _, hl, _, hb => den_noNot L sk hr rfl hl hb
  | .int _, hl, _, hb => den_noNot L sk hr rfl hl hb
  | .str _, hl, _, hb => den_noNot L sk hr rfl hl hb
  | .bool _, hl, _, hb => den_noNot L sk hr rfl hl hb
  | .null, hl, _, hb => den_noNot L sk hr rfl hl hb
  | .sub _, hl, _, hb => den_noNot L sk hr rfl hl hb
  | .plus _, hl, _, hb => den_noNot L sk hr rfl hl hb
  | .minus _, hl, _, hb => den_noNot L sk hr rfl hl hb
  | .bin _ _ _, hl, _, hb => den_noNot L sk hr rfl hl hb
  | .cmp _ _ _, hl, _, hb => den_noNot L sk hr rfl hl hb
  | .and _ _, hl, _, hb => den_noNot L sk hr rfl hl hb
  | .or _ _, hl, _, hb => den_noNot L sk hr rfl hl hb
  | .addbs _, hl, _, hb => den_noNot L sk hr rfl hl hb
  | .call _ _, hl, _, hb => den_noNot L sk hr rfl hl hb

theorem cond_conv (L : Laws A) (sk : Bool) : ∀ e, Cond A e →
    ∃ k, Conv A k (conv sk (clean e)) (A.ofBool (holds A e)) ∧ (isLogic e = true → k = strength e) ∧ (isLogic e = false → 3 ≤ k)
  | .name s, h => by
    obtain ⟨b, hb⟩ := h
    refine ⟨13, ?_, nofun, fun _ => by decide⟩
    have := conv_sound L (.name s) (by simp [Plain]) (by simp [Typed]) sk
    rw [holds, fox, hb, L.truthBool]
    · rw [fox, hb] at this; exact this
    all_goals nofun
  | .bool b, _ => by
    refine ⟨13, ?_, nofun, fun _ => by decide⟩
    have := conv_sound L (.bool b) (by simp [Plain]) (by simp [Typed]) sk
    rw [holds, fox, L.truthBool]
    · rw [fox] at this; exact this
    all_goals nofun
  | .call f as, h => by
    obtain ⟨h1, h2, h3, b, hb⟩ := h
    refine ⟨f.strength, ?_, nofun, fun _ => h3⟩
    have := conv_sound L (.call f as) h1 h2 sk
    rw [hb] at this
    rw [holds, hb, L.truthBool]
    · exact this
    all_goals nofun
  | .cmp o l r, h => by
    obtain ⟨hl, ha, hr, hb⟩ := h
    refine ⟨3, ?_, nofun, fun _ => Nat.le_refl 3⟩
    rw [clean, conv, holds]
    exact .code (den_nots L sk hr l hl ha hb)
  | .sub e, h => by
    rw [clean_sub, conv_mkSub, holds, strength]
    exact cond_conv L sk e h
  | .not e, h => by
    obtain ⟨k, hc, h1, h2⟩ := cond_conv L sk e h
    refine ⟨3, ?_, fun _ => rfl, nofun⟩
    rw [clean, conv, holds]
    refine { int := nofun, str := nofun, bool := nofun, den := ?_ }
    rw [pyRepr]
    have := Den.not (den_wrap_of L hc h1 h2 (noText L (.inl ⟨_, rfl⟩)) 2 (by decide))
    rwa [not_bool L] at this
  | .and l r, h => by
    obtain ⟨k, hc, h1, h2⟩ := cond_conv L sk l h.1
    obtain ⟨k', hc', h1', h2'⟩ := cond_conv L sk r h.2
    refine ⟨2, ?_, fun _ => rfl, nofun⟩
    rw [clean, conv, holds]
    refine { int := nofun, str := nofun, bool := nofun, den := ?_ }
    rw [pyRepr]
    have := Den.and (den_wrap_of L hc h1 h2 (noText L (.inl ⟨_, rfl⟩)) 1 (by decide)) (den_wrap_of L hc' h1' h2' (noText L (.inl ⟨_, rfl⟩)) 1 (by decide))
    rw [choose_bool L] at this
    cases hh : holds A l
    · simpa [hh] using this
    · simpa [hh] using this
  | .or l r, h => by
    obtain ⟨k, hc, h1, h2⟩ := cond_conv L sk l h.1
    obtain ⟨k', hc', h1', h2'⟩ := cond_conv L sk r h.2
    refine ⟨1, ?_, fun _ => rfl, nofun⟩
    rw [clean, conv, holds]
    refine { int := nofun, str := nofun, bool := nofun, den := ?_ }
    rw [pyRepr]
    have := Den.or (den_wrap_of L hc h1 h2 (noText L (.inl ⟨_, rfl⟩)) 0 (by decide)) (den_wrap_of L hc' h1' h2' (noText L (.inl ⟨_, rfl⟩)) 0 (by decide))
    rw [choose_bool L] at this
    cases hh : holds A l
    · simpa [hh] using this
    · simpa [hh] using this

end ExprAux

/-- C39: a condition of AND, OR, NOT and parentheses over logical names, constants,
functions and comparisons denotes in Python the logical value of FoxPro's truth table. -/
theorem C39_conditions_partial (L : Laws A) (e : Ex) (h : Cond A e) :
    ∃ p, Reads (text e) p ∧ eval A p = A.ofBool (holds A e) := by
  obtain ⟨k, hc, _⟩ := cond_conv L false e h
  exact hc.den.reads

/-- Arithmetic can be compared. -/
theorem C39_operand (e : Ex) (ha : Arith e = true) (hp : Parsed e = true) : Operand A e :=
  ⟨arith_plain e ha hp, arith_typed e ha, Nat.le_trans (by decide) (arith_strength e ha)⟩

section
def envB : String → Val := fun s => if s = "a" then .bool true else if s = "b" then .bool false else if s = "c" then .bool false else .err

-- `NOT (a OR b) AND (c AND NOT a = ..)`, with parentheses that matter
example : Cond (py envB) (.or (.not (.sub (.or na nb))) (.sub (.and nc (.sub (.or nb (.not (.sub (.and na nc)))))))) := by
  simp only [Cond, na, nb, nc]
  exact ⟨⟨⟨_, rfl⟩, ⟨_, rfl⟩⟩, ⟨_, rfl⟩, ⟨_, rfl⟩, ⟨_, rfl⟩, ⟨_, rfl⟩⟩

-- `NOT (a + b) > c AND NOT EMPTY(a)`
example : Cond (py env3) (.and (.cmp .gt (.not (.sub (.bin .add na nb))) nc) (.not (.call .empty [na]))) :=
  ⟨⟨C39_operand _ rfl rfl, fun _ => rfl, C39_operand _ rfl rfl, _, rfl⟩, rfl, by simp [Typed, Typeds, na], by decide, _, rfl⟩
example : holds (py env3) (.and (.cmp .gt (.not (.sub (.bin .add na nb))) nc) (.not (.call .empty [na]))) = false := by decide +kernel

/-- C39 does not hold for a comparison of a logical operation: `(a OR b) = c` becomes
`a or b == c`, which is wrong exactly if `a` is true and `c` is false. -/
theorem C39_comparison_iff {env : String → Val} {a b c : String} {x y z : Bool} (ha : (py env).name a = .bool x) (hb : (py env).name b = .bool y) (hc : (py env).name c = .bool z) :
    Keeps env (.cmp .eq (.sub (.or (.name a) (.name b))) (.name c)) ↔ ¬ (x = true ∧ z = false) := by
  rw [keeps_iff (p := .or (.name a) (.cmp (.name b) .eq (.name c))) ⟨20, rfl⟩]
  simp only [eval, fox, ha, hb, hc]
  cases x <;> cases y <;> cases z <;>
    first
    | exact iff_of_true rfl (by decide)
    | exact iff_of_false (fun h => by cases h) (by decide)

example : ¬ Keeps envB (.cmp .eq (.sub (.or na nb)) nc) :=
  fun h => absurd ((C39_comparison_iff (x := true) (y := false) (z := false) (by decide +kernel) (by decide +kernel) (by decide +kernel)).mp h) (by decide)

/-- Nor for a string constant directly behind NOT, which loses its quotes: `NOT "x" $ a`
becomes `not x in a`. -/
theorem C39_constant_fails (s : List Char) (r : Ex) : ∃ ts, text (.cmp .within (.not (.str s)) r) = .not :: .raw s :: .cmp .isIn :: ts := by
  exact ⟨_, rfl⟩

example : text (.cmp .within (.not (.str ['x'])) na) = [.not, .raw ['x'], .cmp .isIn, .name "a"] := by decide +kernel
end

/-! ## C40: signs -/

namespace ExprAux

/-- The sign that is emitted for a chain of signs. -/
def keptSign : List Bool → Bool
  | [] => false
  | [s] => s
  | [s, t] => !s && t
  | _ :: t :: u :: l => keptSign (t :: u :: l)

theorem keptSign_eq : ∀ l, keptSign l = true ↔ l.getLast? = some true ∧ l.dropLast.getLast? ≠ some true
  | [] => by simp [keptSign]
  | [s] => by simp [keptSign]
  | [s, t] => by cases s <;> simp [keptSign]
  | s :: t :: u :: l => by
    rw [keptSign, keptSign_eq (t :: u :: l)]
    simp

theorem clean_signed (a : String) : ∀ l, l ≠ [] →
    clean (signed l (.name a)) = signed (List.replicate (l.length - 1) false ++ [keptSign l]) (.name a)
  | [], h => absurd rfl h
  | [true], _ => by simp [signed, clean, mkMinus, keptSign]
  | [false], _ => by simp [signed, clean, keptSign]
  | [true, true], _ => by simp [signed, clean, mkMinus, keptSign]
  | [true, false], _ => by simp [signed, clean, mkMinus, keptSign]
  | [false, true], _ => by simp [signed, clean, mkMinus, keptSign]
  | [false, false], _ => by simp [signed, clean, keptSign]
  | s :: t :: u :: l, _ => by
    have ih := clean_signed a (t :: u :: l) (by simp)
    have hrep : List.replicate ((t :: u :: l).length - 1) false ++ [keptSign (t :: u :: l)] =
        false :: (List.replicate l.length false ++ [keptSign (t :: u :: l)]) := by
      simp [List.replicate_succ]
    have hrep' : List.replicate ((s :: t :: u :: l).length - 1) false ++ [keptSign (s :: t :: u :: l)] =
        false :: false :: (List.replicate l.length false ++ [keptSign (t :: u :: l)]) := by
      simp [List.replicate_succ, keptSign]
    rw [hrep] at ih
    rw [hrep']
    cases s
    · rw [signed, clean, ih]; rfl
    · rw [signed, clean, ih]; rfl

theorem conv_pluses (a : String) (b : Bool) : ∀ n, pyRepr (conv false (signed (List.replicate n false ++ [b]) (.name a))) =
    if b then [.bin .sub, .name a] else [.name a]
  | 0 => by cases b <;> simp [signed, conv, pyRepr]
  | n + 1 => by
    rw [List.replicate_succ, List.cons_append, signed, conv, pyRepr]
    exact conv_pluses a b n

theorem text_signed (a : String) (l : List Bool) :
    text (signed l (.name a)) = if keptSign l then [.bin .sub, .name a] else [.name a] := by
  cases l with
  | nil => simp [text, signed, clean, conv, pyRepr, keptSign]
  | cons s l => rw [text, clean_signed a _ (by simp), conv_pluses]

theorem fox_signed {env : String → Val} {a : String} {n : Int} (h : (py env).name a = .int n) : ∀ l,
    fox (py env) (signed l (.name a)) = .int (if l.count true % 2 = 1 then -n else n)
  | [] => by simp [signed, fox, h]
  | false :: l => by rw [signed, fox, fox_signed h l]; simp
  | true :: l => by
    rw [signed, fox, fox_signed h l, List.count_cons_self]
    show Val.int _ = Val.int _
    congr 1
    split <;> split <;> omega

end ExprAux

/-- C40: a chain of signs in front of a number keeps its value exactly if the number
of minus signs is odd just when the innermost sign is a minus with no minus next to
it. -/
theorem C40_signs_partial (env : String → Val) (a : String) (n : Int) (hn : n ≠ 0) (h : (py env).name a = .int n) (l : List Bool) :
    (∃ p, Reads (text (signed l (.name a))) p ∧ eval (py env) p = fox (py env) (signed l (.name a))) ↔
      (l.count true % 2 = 1 ↔ (l.getLast? = some true ∧ l.dropLast.getLast? ≠ some true)) := by
  rw [← keptSign_eq]
  have hden : Den (py env) 11 (text (signed l (.name a))) (.int (if keptSign l then -n else n)) := by
    rw [text_signed]
    have hname := (Den.name (A := py env) a).weak (show 11 ≤ 13 by decide)
    rw [h] at hname
    cases keptSign l
    · exact hname
    · exact Den.neg hname
  rw [fox_signed h l]
  constructor
  · rintro ⟨p, hp, hv⟩
    obtain ⟨q, hq, hw⟩ := hden.reads
    rw [reads_det hp hq, hw] at hv
    have hv' : (if keptSign l = true then -n else n) = if l.count true % 2 = 1 then -n else n := by injection hv
    revert hv'
    by_cases h1 : keptSign l = true <;> by_cases h2 : l.count true % 2 = 1 <;> simp [h1, h2] <;> omega
  · intro hiff
    obtain ⟨q, hq, hw⟩ := hden.reads
    refine ⟨q, hq, hw.trans ?_⟩
    by_cases h1 : keptSign l = true
    · simp [h1, hiff.mpr h1]
    · have : ¬ l.count true % 2 = 1 := fun h2 => h1 (hiff.mp h2)
      simp [h1, this]

-- `--a` and `+-a` keep their value, `-+a` and `---a` do not
example : ([true, true].count true % 2 = 1 ↔ ([true, true].getLast? = some true ∧ [true, true].dropLast.getLast? ≠ some true)) := by
  decide
example : ¬ ([true, false].count true % 2 = 1 ↔ ([true, false].getLast? = some true ∧ [true, false].dropLast.getLast? ≠ some true)) := by
  decide

/-- C40 does not hold for `-+a`, which becomes `a`. -/
theorem C40_signs_fails (env : String → Val) (a : String) (n : Int) (hn : n ≠ 0) (h : (py env).name a = .int n) :
    ¬ Keeps env (.minus (.plus (.name a))) :=
  fun hk => absurd ((C40_signs_partial env a n hn h [true, false]).mp hk) (by decide)

example : ¬ Keeps env3 (.minus (.plus na)) := C40_signs_fails env3 "a" 2 (by decide) (by decide +kernel)

/-- C40, doubled parentheses: any number of them around an expression leaves the text
of an operand the same as one pair. -/
theorem C40_parentheses (o : AOp) (e r : Ex) (n : Nat) :
    text (.bin o (Nat.repeat .sub (n + 1) e) r) = text (.bin o (.sub e) r) ∧
      text (.bin o r (Nat.repeat .sub (n + 1) e)) = text (.bin o r (.sub e)) := by
  have h : clean (Nat.repeat .sub (n + 1) e) = clean (.sub e) := by
    induction n with
    | zero => rfl
    | succ n ih =>
      show clean (.sub (Nat.repeat .sub (n + 1) e)) = _
      rw [clean_sub, ih, clean_sub]
      cases clean e <;> rfl
  cases o <;> simp only [text, clean, h, and_self]

example : Nat.repeat Ex.sub 3 (.bin .add na nb) = .sub (.sub (.sub (.bin .add na nb))) ∧
    text (.bin .mul (.sub (.sub (.sub (.bin .add na nb)))) nc) = text (.bin .mul (.sub (.bin .add na nb)) nc) :=
  ⟨rfl, (C40_parentheses .mul (.bin .add na nb) nc 2).1⟩

/-! ## C45: compound assignment -/

/-- The value that a generated assignment stores: an augmented assignment combines
the old value of the target with the value of the whole rest. -/
def Stores (A : Alg V) : Assign → V → Prop
  | .plain _ ts, v => ∃ p, Reads ts p ∧ eval A p = v
  | .aug x o ts, v => ∃ p, Reads ts p ∧ A.bin o (A.name x) (eval A p) = v

/-- The expression begins with `x` and one of `+ - * /`. -/
def opens (x : String) : PyE → Bool
  | .bin o (.name y) _ => x == y && (o == .add || o == .sub || o == .mul || o == .div)
  | .bin _ l _ => opens x l
  | .cmp l _ _ => opens x l
  | .chain l _ _ => opens x l
  | .and l _ => opens x l
  | .or l _ => opens x l
  | .ite t _ _ => opens x t
  | .attr e _ => opens x e
  | .call f _ => opens x f
  | .index e _ => opens x e
  | .sliceFrom e _ => opens x e
  | .sliceTo e _ => opens x e
  | .slice e _ _ => opens x e
  | _ => false

namespace ExprAux

def Compound (o : BinOp) : Prop := o = .add ∨ o = .sub ∨ o = .mul ∨ o = .div

theorem prints_name {k x p} (h : Prints k [.name x] p) : p = .name x := reads_det (prints_reads h) (prints_reads .name)

theorem name_prints {k ts x} (h : Prints k ts (.name x)) : ts = [.name x] := by cases h; rfl

theorem split2 {α} {a b rest : List α} {X t u : α} (h : a ++ X :: b = t :: u :: rest) (ha : a ≠ []) :
    (a = [t] ∧ X = u) ∨ ∃ r, a = t :: u :: r := by
  match a, ha with
  | [c], _ => simp at h; exact .inl ⟨by rw [h.1], h.2.1⟩
  | c :: d :: r, _ => simp at h; exact .inr ⟨r, by rw [h.1, h.2.1]⟩

theorem prints_ne {k ts p} (h : Prints k ts p) : ts ≠ [] := by
  intro hn; have := prints_head h; rw [hn] at this; cases this

theorem opens_bin {x o l r} (h : opens x l = true) : opens x (.bin o l r) = true := by
  cases l <;> first | exact h | cases h

theorem prints_opens {k ts p x o rest} (h : Prints k ts p) (ht : ts = .name x :: .bin o :: rest) (ho : Compound o) :
    opens x p = true := by
  have key : ∀ {k tsl l X b}, (∀ o, X ≠ Tok.bin o) → Prints k tsl l → tsl ++ X :: b = .name x :: .bin o :: rest →
      (∀ {rest}, tsl = .name x :: .bin o :: rest → opens x l = true) → opens x l = true := by
    intro k tsl l X b hX hl ht ih
    rcases split2 ht (prints_ne hl) with ⟨_, h⟩ | ⟨r, h⟩
    · exact absurd h (hX o)
    · exact ih h
  exact go h ht ho
where
  go {k ts p x o} : Prints k ts p → ∀ {rest}, ts = .name x :: .bin o :: rest → Compound o → opens x p = true
  | .name, _, ht, _ => by simp at ht
  | .int, _, ht, _ => by simp at ht
  | .str, _, ht, _ => by simp at ht
  | .paren _, _, ht, _ => by simp at ht
  | .neg _ _, _, ht, _ => by simp at ht
  | .inv _ _, _, ht, _ => by simp at ht
  | .not _ _, _, ht, _ => by simp at ht
  | .bin _ _ _ hl _, _, ht, ho => by
    rcases split2 ht (prints_ne hl) with ⟨h, h'⟩ | ⟨r, h⟩
    · subst h
      rw [prints_name hl]
      injection h' with h'
      subst h'
      rcases ho with rfl | rfl | rfl | rfl <;> simp [opens]
    · exact opens_bin (go hl h ho)
  | .cmp _ _ hl _, _, ht, ho => by
    rcases split2 ht (prints_ne hl) with ⟨_, h'⟩ | ⟨r, h⟩
    · cases h'
    · rw [opens]; exact go hl h ho
  | .chain _ _ hl _, _, ht, ho => by
    rcases split2 ht (prints_ne hl) with ⟨_, h'⟩ | ⟨r, h⟩
    · cases h'
    · rw [opens]; exact go hl h ho
  | .and _ _ hl _, _, ht, ho => by
    rcases split2 ht (prints_ne hl) with ⟨_, h'⟩ | ⟨r, h⟩
    · cases h'
    · rw [opens]; exact go hl h ho
  | .or _ _ hl _, _, ht, ho => by
    rcases split2 ht (prints_ne hl) with ⟨_, h'⟩ | ⟨r, h⟩
    · cases h'
    · rw [opens]; exact go hl h ho
  | .ite _ _ hl _ _, _, ht, ho => by
    rcases split2 ht (prints_ne hl) with ⟨_, h'⟩ | ⟨r, h⟩
    · cases h'
    · rw [opens]; exact go hl h ho
  | .attr hl, _, ht, ho => by
    rcases split2 ht (prints_ne hl) with ⟨_, h'⟩ | ⟨r, h⟩
    · cases h'
    · rw [opens]; exact go hl h ho
  | .call hl _, _, ht, ho => by
    rcases split2 ht (prints_ne hl) with ⟨_, h'⟩ | ⟨r, h⟩
    · cases h'
    · rw [opens]; exact go hl h ho
  | .index hl _, _, ht, ho => by
    rcases split2 ht (prints_ne hl) with ⟨_, h'⟩ | ⟨r, h⟩
    · cases h'
    · rw [opens]; exact go hl h ho
  | .sliceFrom hl _, _, ht, ho => by
    rcases split2 ht (prints_ne hl) with ⟨_, h'⟩ | ⟨r, h⟩
    · cases h'
    · rw [opens]; exact go hl h ho
  | .sliceTo hl _, _, ht, ho => by
    rcases split2 ht (prints_ne hl) with ⟨_, h'⟩ | ⟨r, h⟩
    · cases h'
    · rw [opens]; exact go hl h ho
  | .slice hl _ _, _, ht, ho => by
    rcases split2 ht (prints_ne hl) with ⟨_, h'⟩ | ⟨r, h⟩
    · cases h'
    · rw [opens]; exact go hl h ho

theorem prints_root {k ts x o' q o rest} (h : Prints k ts (.bin o' (.name x) q)) (ht : ts = .name x :: .bin o :: rest) :
    o' = o ∧ Reads rest q := by
  cases h with
  | bin _ _ _ hl hr =>
    rw [name_prints hl] at ht
    simp at ht
    exact ⟨ht.1, ht.2 ▸ prints_reads hr⟩

theorem assign_cases (x : String) (e : Ex) :
    assign x e = .plain x (text e) ∨
      ∃ o rest, Compound o ∧ text e = .name x :: .bin o :: rest ∧ assign x e = .aug x o rest := by
  unfold assign text
  split
  · rename_i y o rest heq
    split
    · rename_i hc
      obtain ⟨rfl, hc⟩ := hc
      exact .inr ⟨o, rest, hc, by rw [heq, repr_code], rfl⟩
    · exact .inl (by rw [heq, repr_code])
  · exact .inl rfl

end ExprAux

/-- C45: whatever form an assignment takes, it stores the value of the expression in
the target, provided that an expression that begins with `x op` has that operation
outermost. -/
theorem C45_stores_partial (L : Laws A) (x : String) (e : Ex) (hp : Plain e = true) (ht : Typed A e) {p : PyE}
    (hr : Reads (text e) p) (hop : opens x p = true → ∃ o q, p = .bin o (.name x) q) :
    Stores A (assign x e) (fox A e) := by
  obtain ⟨k, q, _, hq, hv⟩ := (conv_sound L e hp ht false).den
  have hpq : p = q := reads_det hr (prints_reads hq)
  subst hpq
  rcases assign_cases x e with h | ⟨o, rest, ho, hts, h⟩
  · rw [h]; exact ⟨p, hr, hv⟩
  · rw [h]
    obtain ⟨o', q, rfl⟩ := hop (prints_opens hq hts ho)
    obtain ⟨rfl, hrest⟩ := prints_root hq hts
    exact ⟨q, hrest, by rw [← hv, eval, eval]⟩

-- `a = a - b * c` is of that form, `a = b + a` begins with another name
example : Plain (.bin .sub na (.bin .mul nb nc)) = true ∧
    Reads (text (.bin .sub na (.bin .mul nb nc))) (.bin .sub (.name "a") (.bin .mul (.name "b") (.name "c"))) ∧
    opens "a" (.bin .sub (.name "a") (.bin .mul (.name "b") (.name "c"))) = true :=
  ⟨by decide +kernel, ⟨20, rfl⟩, by decide +kernel⟩

/-- C45: `x = x op r` becomes `x op= r` for `+ - * /`, and combines the old value with
the value of `r`. -/
theorem C45_compound (L : Laws A) (x : String) (o : AOp) (ho : o ≠ .pow ∧ o ≠ .mod) (r : Ex) (hp : Plain r = true)
    (ht : Typed A r) :
    ∃ ts p, assign x (.bin o (.name x) r) = .aug x o.py ts ∧ Reads ts p ∧ eval A p = fox A r := by
  have hc := conv_sound L r hp ht false
  have hcode : conv false (clean (.bin o (.name x) r)) =
      .code (.name x :: .bin o.py :: pyRepr (parens (clean r) (conv false (clean r)))) := by
    cases o <;> first | exact absurd rfl ho.1 | exact absurd rfl ho.2 | simp [clean, conv, isPath, Py.isOp, opCode, parens, isSub, pyRepr]
  have ho' : o.py = .add ∨ o.py = .sub ∨ o.py = .mul ∨ o.py = .div := by
    cases o <;> first | exact absurd rfl ho.1 | exact absurd rfl ho.2 | simp [AOp.py]
  have hden : Den A 0 (pyRepr (parens (clean r) (conv false (clean r)))) (fox A r) := by
    unfold parens
    split
    · rw [repr_code]; exact hc.den.paren.weak (Nat.zero_le _)
    · exact hc.den.weak (Nat.zero_le _)
  obtain ⟨p, hp, hv⟩ := hden.reads
  refine ⟨_, p, ?_, hp, hv⟩
  unfold assign
  rw [hcode]
  simp only [true_and]
  rw [if_pos ho']

example : Plain (.bin .mul nb (.sub (.bin .add nc nb))) = true := by decide +kernel

/-- C45 does not hold for `x = x - y + z`, which becomes `x -= y + z`: for all variables and numbers
the value stored is `x - (y + z)`, which is the value of the expression only when `z` is 0. -/
theorem C45_compound_fails (env : String → Val) (x y z : String) (i j k : Int)
    (hx : (py env).name x = .int i) (hy : (py env).name y = .int j) (hz : (py env).name z = .int k) :
    fox (py env) (.bin .add (.bin .sub (.name x) (.name y)) (.name z)) = .int (i - j + k) ∧
    Stores (py env) (assign x (.bin .add (.bin .sub (.name x) (.name y)) (.name z))) (.int (i - (j + k))) ∧
    (Stores (py env) (assign x (.bin .add (.bin .sub (.name x) (.name y)) (.name z)))
      (fox (py env) (.bin .add (.bin .sub (.name x) (.name y)) (.name z))) ↔ k = 0) := by
  have hf : fox (py env) (.bin .add (.bin .sub (.name x) (.name y)) (.name z)) = .int (i - j + k) := by
    simp only [fox, hx, hy, hz]
    rfl
  have ha : assign x (.bin .add (.bin .sub (.name x) (.name y)) (.name z)) =
      .aug x .sub [.name y, .bin .add, .name z] := by
    simp [assign, clean, conv, isPath, Py.isOp, opCode, parens, isSub, pyRepr, AOp.py]
  have hr : Reads [.name y, .bin .add, .name z] (.bin .add (.name y) (.name z)) := ⟨20, rfl⟩
  have hv : (py env).bin .sub ((py env).name x) (eval (py env) (.bin .add (.name y) (.name z))) = .int (i - (j + k)) := by
    simp only [eval, hx, hy, hz]
    rfl
  rw [ha, hf]
  refine ⟨rfl, ⟨_, hr, hv⟩, ⟨?_, ?_⟩⟩
  · rintro ⟨p, hp, hv'⟩
    rw [reads_det hp hr, hv] at hv'
    injection hv' with h
    omega
  · rintro rfl
    refine ⟨_, hr, ?_⟩
    rw [hv]
    congr 1
    omega

example : (py env3).name "a" = .int 2 ∧ (py env3).name "b" = .int 3 ∧ (py env3).name "c" = .int 4 ∧
    assign "a" (.bin .add (.bin .sub na nb) nc) = .aug "a" .sub [.name "b", .bin .add, .name "c"] :=
  ⟨by decide +kernel, by decide +kernel, by decide +kernel, rfl⟩

/-! ## C53: string constants and paths -/

namespace ExprAux

theorem strConst_conv {e : Ex} {s : List Char} (h : StrConst e s) (sk : Bool) :
    conv sk (clean e) = .str s ∧ isSub (clean e) = false ∧ isPath (clean e) = false := by
  induction h generalizing sk with
  | str s => simp [clean, conv, isSub, isPath]
  | chr n hn => simp [clean, cleans, conv, convs, func, pyInt, pyChr, hn, isSub, isPath]
  | space n hn =>
    have : ¬ (8 : Int) < n := by omega
    simp [clean, cleans, conv, convs, func, pyInt, pySpace, isSub, isPath, this]
  | add hl hr ihl ihr =>
    refine ⟨?_, by simp [clean, isSub], by simp [clean, isPath]⟩
    rw [clean, conv]
    · simp [(ihl true).1, (ihl sk).1, (ihr sk).1, (ihl sk).2.1, (ihr sk).2.1, (ihl sk).2.2, Py.isOp, parens, opCode]
    · nofun

end ExprAux

/-- C53: a sum of string constants, CHR() and SPACE() of constants is one string
constant of the same characters. -/
theorem C53_constants {e : Ex} {s : List Char} (h : StrConst e s) : text e = [.str s] := by
  rw [text, (strConst_conv h false).1, pyRepr]

example : StrConst (.bin .add (.bin .add (.str ['a']) (.call .chr [.int 13])) (.call .space [.int 3])) ['a', '\r', ' ', ' ', ' '] :=
  .add (.add (.str _) (.chr 13 (by decide))) (.space 3 (by decide))

/-- A directory with its separator, then a name. -/
def under (d x : List Char) : List Char := if d = [] ∨ d.getLast? = some '/' then d ++ x else d ++ '/' :: x

/-- The components of a path and their values, the last one first. -/
inductive Parts (env : String → Val) : List Ex → List (List Char) → Prop
  | nil : Parts env [] []
  | cons {x xs v vs} : Plain x = true → Typed (py env) x → fitsRight .add x = true → fox (py env) x = .str v →
      v.head? ≠ some '/' → Parts env xs vs → Parts env (x :: xs) (v :: vs)

namespace ExprAux

theorem dirPath_plain {env d xs vs} (h : Parts env xs vs) (hd : Plain d = true) (hadd : isAdd d = false) :
    Plain (dirPath d xs) = true ∧ plainPath (.addbs (dirPath d xs)) = true := by
  induction h with
  | nil =>
    refine ⟨hd, ?_⟩
    rw [dirPath]
    cases d <;> first | rfl | skip
    rename_i o l r
    cases o <;> first | rfl | cases hadd
  | cons hp _ hf _ _ _ ih =>
    refine ⟨?_, ?_⟩
    · rw [dirPath, Plain, Plain, ih.1, hp, hf, ih.2]
      rfl
    · rw [dirPath, plainPath]; exact ih.2

theorem dirPath_typed {env d xs vs} (h : Parts env xs vs) (hd : Typed (py env) d) : Typed (py env) (dirPath d xs) := by
  induction h with
  | nil => exact hd
  | cons _ ht _ hv hs _ ih =>
    rw [dirPath, Typed, Typed]
    refine ⟨ih, ht, fun _ _ => ?_⟩
    rw [hv]
    exact py_relative env hs

theorem dirPath_fox {env d xs vs s} (h : Parts env xs vs) (hd : fox (py env) d = .str s) :
    fox (py env) (dirPath d xs) = .str (vs.foldr (fun x p => under p x) s) := by
  induction h with
  | nil => exact hd
  | cons _ _ _ hv hs _ ih =>
    rw [dirPath, fox, fox, hv, ih, List.foldr_cons]
    generalize List.foldr _ s _ = t
    show bin .add (join2 (.str t) (.str [])) (.str _) = _
    have h0 : ¬ ([] : List Char).head? = some '/' := by simp
    simp only [join2, under, if_neg h0]
    by_cases ht : t = [] ∨ t.getLast? = some '/'
    · rw [if_pos ht, if_pos ht]; simp [bin, only]
    · rw [if_neg ht, if_neg ht]; simp [bin, only]

end ExprAux

/-- C53: nested ADDBS() denotes the path of the directory and the components in their
order. -/
theorem C53_paths_partial (env : String → Val) (d : Ex) (xs : List Ex) (s : List Char) (vs : List (List Char))
    (hd : Plain d = true) (ht : Typed (py env) d) (hadd : isAdd d = false) (hv : fox (py env) d = .str s) (h : Parts env xs vs) :
    ∃ p, Reads (text (dirPath d xs)) p ∧ eval (py env) p = .str (vs.foldr (fun x p => under p x) s) := by
  rw [← dirPath_fox h hv]
  exact C71_expression_partial (py_laws env) _ (dirPath_plain h hd hadd).1 (dirPath_typed h ht)

section
def envP : String → Val := fun s => if s = "a" then .str ['d'] else if s = "b" then .str ['e', '/'] else .str ['f']

example : Parts envP [nc, nb] [['f'], ['e', '/']] ∧ fox (py envP) na = .str ['d'] ∧
    [['f'], ['e', '/']].foldr (fun x p => under p x) ['d'] = ['d', '/', 'e', '/', 'f'] :=
  ⟨.cons rfl trivial rfl rfl (by decide) (.cons rfl trivial rfl rfl (by decide) .nil), rfl, by decide⟩
end

/-- C53: the text is one call with the directory and the components as arguments. -/
theorem C53_paths_text (d : String) (x : String) (xs : List String) :
    text (dirPath (.name d) ((x :: xs).map .name)) =
      [.name "os", .dot, .name "path", .dot, .name "join", .lp] ++
        (.name d :: (x :: xs).reverse.flatMap fun c => [.comma, .name c]) ++ [.rp] := by
  have hclean : ∀ l : List String, clean (dirPath (.name d) (l.map .name)) = dirPath (.name d) (l.map .name) := by
    intro l
    induction l with
    | nil => simp [dirPath, clean]
    | cons y l ih => simp [dirPath, clean, ih]
  have hargs : ∀ (l : List String) v, pathArgs (.addbs (dirPath (.name d) (l.map .name))) v =
      (d :: l.reverse).map fun c => .code [.name c] := by
    intro l
    induction l with
    | nil => intro v; simp [dirPath, pathArgs, conv]
    | cons y l ih =>
      intro v
      rw [List.map_cons, dirPath, pathArgs, ih]
      simp [conv]
  have hcommas : ∀ (l : List String) (c : String), commas ((c :: l).map fun c => [Tok.name c]) =
      .name c :: l.flatMap fun c => [.comma, .name c] := by
    intro l
    induction l with
    | nil => intro c; simp [commas]
    | cons y l ih => intro c; simp only [List.map_cons, List.flatMap_cons] at ih ⊢; rw [commas, ih]; rfl; nofun
  rw [text, hclean, List.map_cons, dirPath, conv]
  · simp only [isPath, Bool.not_false, Bool.true_or, Bool.and_true, if_true]
    rw [hargs, repr_code, funcCode]
    have : (List.map (fun c => Py.code [Tok.name c]) (d :: xs.reverse) ++ [conv true (.name x)]).map pyRepr =
        (d :: (xs.reverse ++ [x])).map fun c => [Tok.name c] := by
      simp [conv, pyRepr]
    rw [this, hcommas]
    simp [tOsPath]

example : text (dirPath (.name "d") [.name "f", .name "e"]) =
    [.name "os", .dot, .name "path", .dot, .name "join", .lp, .name "d", .comma, .name "e", .comma, .name "f", .rp] :=
  C53_paths_text "d" "f" ["e"]

section
variable {env : String → Val} {a b c : String}

/-- C53 does not hold if the argument of ADDBS() is a sum: `ADDBS(a + b) + c` becomes
`os.path.join(a, b, c)`, with a separator between `a` and `b`. -/
theorem C53_sum_fails {x y z : List Char} (ha : (py env).name a = .str x) (hb : (py env).name b = .str y)
    (hc : (py env).name c = .str z) (hx : x ≠ []) (hx' : x.getLast? ≠ some '/') (hy : y ≠ []) (hy' : y.head? ≠ some '/')
    (hz : z.head? ≠ some '/') : ¬ Keeps env (.bin .add (.addbs (.bin .add (.name a) (.name b))) (.name c)) := by
  rw [keeps_iff (p := .call (.attr (.attr (.name "os") "path") "join") [.name a, .name b, .name c]) ⟨20, rfl⟩]
  have hj : eval (py env) (.call (.attr (.attr (.name "os") "path") "join") [.name a, .name b, .name c]) =
      joins [(py env).name a, (py env).name b, (py env).name c] := rfl
  have hf : fox (py env) (.bin .add (.addbs (.bin .add (.name a) (.name b))) (.name c)) =
      bin .add (joins [bin .add ((py env).name a) ((py env).name b), .str []]) ((py env).name c) := rfl
  have hb' : bin .add (.str x) (.str y) = .str (x ++ y) := rfl
  have hl : (x ++ y).getLast? = y.getLast? := by rw [List.getLast?_append]; simp [List.getLast?_eq_some_getLast hy]
  have hl' : (x ++ '/' :: y).getLast? = y.getLast? := by rw [List.getLast?_append]; simp [List.getLast?_eq_some_getLast hy, List.getLast?_cons]
  rw [hj, hf, ha, hb, hc, hb']
  simp only [joins, List.foldl_cons, List.foldl_nil, join2, if_neg hy', if_neg hz, hx, hx', hl, false_or, if_false, List.head?_nil,
    reduceCtorEq, List.append_eq_nil_iff, false_and]
  simp only [hl']
  by_cases h : y.getLast? = some '/'
  · simp only [h, or_true, if_true]
    intro e
    have : (x ++ '/' :: y ++ z) = (x ++ y ++ [] ++ z) := by
      have e' : Val.str (x ++ '/' :: y ++ z) = Val.str (x ++ y ++ [] ++ z) := e
      injection e'
    have := congrArg List.length this
    simp at this
  · simp only [h]
    intro e
    have : (x ++ '/' :: y ++ '/' :: z) = (x ++ y ++ ['/'] ++ z) := by
      have e' : Val.str (x ++ '/' :: y ++ '/' :: z) = Val.str (x ++ y ++ ['/'] ++ z) := e
      injection e'
    have := congrArg List.length this
    simp at this

example : ¬ Keeps envP (.bin .add (.addbs (.bin .add na nb)) nc) :=
  C53_sum_fails (x := ['d']) (y := ['e', '/']) (z := ['f']) (by decide +kernel) (by decide +kernel) (by decide +kernel) (by decide)
    (by decide) (by decide) (by decide) (by decide)

/-! ## C71: functions converted in place -/

/-- C71 does not hold for a string operation on a sum: `UPPER(a + b)` becomes
`a + b.upper()`, which is right only if `a` has no letters to change. -/
theorem C71_receiver_iff {x y : List Char} (ha : (py env).name a = .str x) (hb : (py env).name b = .str y) :
    Keeps env (.call (.meth "upper") [.bin .add (.name a) (.name b)]) ↔ x.map Char.toUpper = x := by
  rw [keeps_iff (p := .bin .add (.name a) (.call (.attr (.name b) "upper") [])) ⟨20, rfl⟩]
  have hp : eval (py env) (.bin .add (.name a) (.call (.attr (.name b) "upper") [])) =
      bin .add ((py env).name a) (call (attr ((py env).name b) "upper") []) := rfl
  have hf : fox (py env) (.call (.meth "upper") [.bin .add (.name a) (.name b)]) =
      call (attr (bin .add ((py env).name a) ((py env).name b)) "upper") [] := rfl
  have hu : ∀ s : List Char, call (attr (.str s) "upper") [] = .str (s.map Char.toUpper) := fun s => rfl
  have hs : ∀ s t : List Char, bin .add (.str s) (.str t) = .str (s ++ t) := fun s t => rfl
  rw [hp, hf, ha, hb, hu, hs, hs, hu, Val.str.injEq, List.map_append, List.append_cancel_right_eq]
  exact eq_comm

example : ¬ Keeps envP (.call (.meth "upper") [.bin .add na nb]) :=
  fun h => absurd ((C71_receiver_iff (x := ['d']) (y := ['e', '/']) (by decide +kernel) (by decide +kernel)).mp h) (by decide)

/-- Nor for a function whose code is a sum: `2 * AT(a, b)` becomes `2 * b.find(a) + 1`. -/
theorem C71_result_iff {n : Nat} {x y : List Char} (ha : (py env).name a = .str x) (hb : (py env).name b = .str y) :
    Keeps env (.bin .mul (.int n) (.call .att [.name a, .name b])) ↔ n = 1 := by
  rw [keeps_iff (p := .bin .add (.bin .mul (.int n) (.call (.attr (.name b) "find") [.name a])) (.int 1)) ⟨20, rfl⟩]
  have hp : eval (py env) (.bin .add (.bin .mul (.int n) (.call (.attr (.name b) "find") [.name a])) (.int 1)) =
      bin .add (bin .mul (.int n) (call (attr ((py env).name b) "find") [(py env).name a])) (.int 1) := rfl
  have hf : fox (py env) (.bin .mul (.int n) (.call .att [.name a, .name b])) =
      bin .mul (.int n) (bin .add (call (attr ((py env).name b) "find") [(py env).name a]) (.int 1)) := rfl
  have hc : ∃ k : Int, call (attr (.str y) "find") [.str x] = .int k := ⟨_, rfl⟩
  obtain ⟨k, hk⟩ := hc
  rw [hp, hf, ha, hb, hk]
  show Val.int (n * k + 1) = Val.int (n * (k + 1)) ↔ _
  rw [Val.int.injEq, Int.mul_add]
  omega

example : ¬ Keeps envP (.bin .mul (.int 2) (.call .att [na, nb])) :=
  fun h => absurd ((C71_result_iff (x := ['d']) (y := ['e', '/']) (by decide +kernel) (by decide +kernel)).mp h) (by decide)

/-- Nor for an argument of MOD: `MOD(a + b, c)` becomes `(a + b % c)`, which is right only if
that is a remainder already. -/
theorem C71_mod_iff {x y z : Int} (ha : (py env).name a = .int x) (hb : (py env).name b = .int y) (hc : (py env).name c = .int z)
    (hz : 0 < z) :
    Keeps env (.call .mod [.bin .add (.name a) (.name b), .name c]) ↔ 0 ≤ x + y % z ∧ x + y % z < z := by
  rw [keeps_iff (p := .paren (.bin .add (.name a) (.bin .mod (.name b) (.name c)))) ⟨20, rfl⟩]
  have hp : eval (py env) (.paren (.bin .add (.name a) (.bin .mod (.name b) (.name c)))) =
      bin .add ((py env).name a) (bin .mod ((py env).name b) ((py env).name c)) := rfl
  have hf : fox (py env) (.call .mod [.bin .add (.name a) (.name b), .name c]) =
      bin .mod (bin .add ((py env).name a) ((py env).name b)) ((py env).name c) := rfl
  have hm : ∀ w : Int, bin .mod (.int w) (.int z) = .int (w % z) := fun w => by
    show (if z = 0 then Val.err else .int (Int.fmod w z)) = _
    rw [if_neg (by omega), Int.fmod_eq_emod_of_nonneg _ (by omega)]
  have ha' : ∀ v w : Int, bin .add (.int v) (.int w) = .int (v + w) := fun v w => rfl
  rw [hp, hf, ha, hb, hc, hm, ha', ha', hm, Val.int.injEq]
  constructor
  · intro h
    rw [h]
    exact ⟨Int.emod_nonneg _ (by omega), Int.emod_lt_of_pos _ hz⟩
  · rintro ⟨h1, h2⟩
    rw [← Int.emod_eq_of_lt h1 h2, Int.add_emod_emod]

example : ¬ Keeps env3 (.call .mod [.bin .add na nb, nc]) :=
  fun h => absurd ((C71_mod_iff (x := 2) (y := 3) (z := 4) (by decide +kernel) (by decide +kernel) (by decide +kernel) (by decide)).mp h) (by decide)
end

end Props
