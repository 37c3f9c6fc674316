import Verif.Model.Precedence
import Verif.Props.Expr
/-!
# C142: operators bind as in FoxPro

From the tokens of an expression through the parser and the converter to the value
that Python gives to the generated text.
-/
namespace Props
open FoxExpr Precedence
open PyExpr (Alg Reads eval)
open PyVal (Val py)

namespace PrecSpec

mutual
/-- The tokens of an expression; `a ^ b` may be written `a ** b`. -/
inductive Text : Ex → List Tok → Prop
  | name (s) : Text (.name s) [.name s]
  | int (n) : Text (.int n) [.int n]
  | str (s) : Text (.str s) [.str s]
  | bool (b) : Text (.bool b) [.bool b]
  | null : Text .null [.null]
  | sub {e ts} : Text e ts → Text (.sub e) (.lp :: (ts ++ [.rp]))
  | plus {e ts} : Text e ts → Text (.plus e) (.plus :: ts)
  | minus {e ts} : Text e ts → Text (.minus e) (.minus :: ts)
  | not {e ts} : Text e ts → Text (.not e) (.not :: ts)
  | add {l r a b} : Text l a → Text r b → Text (.bin .add l r) (a ++ .plus :: b)
  | subt {l r a b} : Text l a → Text r b → Text (.bin .sub l r) (a ++ .minus :: b)
  | mul {l r a b} : Text l a → Text r b → Text (.bin .mul l r) (a ++ .star :: b)
  | div {l r a b} : Text l a → Text r b → Text (.bin .div l r) (a ++ .slash :: b)
  | mod {l r a b} : Text l a → Text r b → Text (.bin .mod l r) (a ++ .percent :: b)
  | pow {l r a b} : Text l a → Text r b → Text (.bin .pow l r) (a ++ .caret :: b)
  | power {l r a b} : Text l a → Text r b → Text (.bin .pow l r) (a ++ .star :: .star :: b)
  | cmp {o l r a b} : Text l a → Text r b → Text (.cmp o l r) (a ++ .cmp o :: b)
  | and {l r a b} : Text l a → Text r b → Text (.and l r) (a ++ .and :: b)
  | or {l r a b} : Text l a → Text r b → Text (.or l r) (a ++ .or :: b)
  | addbs {e ts} : Text e ts → Text (.addbs e) (.addbs :: .lp :: (ts ++ [.rp]))
  | call {f es ts} : Texts es ts → Text (.call f es) (.fn f :: .lp :: (ts ++ [.rp]))
/-- Arguments with commas between them. -/
inductive Texts : List Ex → List Tok → Prop
  | nil : Texts [] []
  | one {e ts} : Text e ts → Texts [e] ts
  | cons {e es ts us} : Text e ts → Texts es us → es ≠ [] → Texts (e :: es) (ts ++ .comma :: us)
end

/-- A condition as FoxPro groups it. -/
inductive Cnd
  /-- logical name, constant or function -/
  | atom (e : Ex)
  | cmp (o : FCmp) (l r : Ex)
  | paren (c : Cnd)
  | not (c : Cnd)
  | and (l r : Cnd)
  | or (l r : Cnd)

/-- The tokens of a condition: OR binds loosest (0), then AND (1), then NOT (2), then
comparisons (3), whose operands are sums, products, powers and so on. -/
inductive CText : Nat → Cnd → List Tok → Prop
  | atom {e ts} : Text e ts → CText 3 (.atom e) ts
  | cmp {o l r a b} : Text l a → Text r b → CText 3 (.cmp o l r) (a ++ .cmp o :: b)
  | paren {k c ts} : CText k c ts → CText 3 (.paren c) (.lp :: (ts ++ [.rp]))
  | not {k c ts} : CText k c ts → 2 ≤ k → CText 2 (.not c) (.not :: ts)
  | and {k k' l r a b} : CText k l a → CText k' r b → 1 ≤ k → 2 ≤ k' → CText 1 (.and l r) (a ++ .and :: b)
  | or {k k' l r a b} : CText k l a → CText k' r b → 1 ≤ k' → CText 0 (.or l r) (a ++ .or :: b)

section
variable {V : Type} (A : Alg V)

/-- Truth of a condition. -/
def CHolds : Cnd → Bool
  | .atom e => A.truth (fox A e)
  | .cmp o l r => A.truth (A.cmp o.py (fox A l) (fox A r))
  | .paren c => CHolds c
  | .not c => !CHolds c
  | .and l r => CHolds l && CHolds r
  | .or l r => CHolds l || CHolds r

/-- Logical name, constant or function. -/
def Atomic : Ex → Bool
  | .name _ => true
  | .bool _ => true
  | .call _ _ => true
  | _ => false

/-- A name, a number, a signed operand or a call of a function other than CHR and SPACE,
whose calls may turn into string constants. -/
def Base : Ex → Bool
  | .name _ => true
  | .int _ => true
  | .minus _ => true
  | .call .chr _ => false
  | .call .space _ => false
  | .call _ _ => true
  | _ => false

/-- Operations other than `+` that begin with such an operand; no power of a power. -/
def Spine : Ex → Bool
  | .bin .add _ _ => false
  | .bin .pow l _ => Base l
  | .bin _ l _ => Spine l
  | e => Base e

/-- What may stand between NOT and a comparison operator. -/
def AfterNot : Ex → Bool
  | .sub e => Arith e
  | e => Spine e

/-- If a comparison follows after NOTs, its left operand is of that form. -/
def NotFits : Cnd → Bool
  | .cmp _ l _ => AfterNot l
  | .not c => NotFits c
  | _ => true

/-- An operand of a comparison: grouped as the grammar does, no parentheses missing,
no comparison or logical operation. -/
def Compared (e : Ex) : Prop := Operand A e ∧ Parsed e = true ∧ 2 < gLevel e

/-- A condition with operands of the right type. -/
def Good : Cnd → Prop
  | .atom e => Atomic e = true ∧ Parsed e = true ∧ Plain e = true ∧ Typed A e ∧ 3 ≤ strength e ∧ IsLogical A (fox A e)
  | .cmp o l r => Compared A l ∧ Compared A r ∧ IsLogical A (A.cmp o.py (fox A l) (fox A r))
  | .paren c => Good c
  | .not c => Good c ∧ NotFits c = true
  | .and l r => Good l ∧ Good r
  | .or l r => Good l ∧ Good r
end

end PrecSpec
open PrecSpec

namespace PrecAux

/-- The level of an expression in the numbers of the parser. -/
def lev (e : Ex) : Nat := if gLevel e = 7 then 13 else gLevel e + 4

/-- The operator in front binds less tightly than `k`. -/
def Below (k : Nat) (ts : List Tok) : Prop := ∀ o r, front ts = some (o, r) → o.prec < k

/-- An infix operator as it is written. -/
inductive OpText : Op → List Tok → Prop
  | caret : OpText (.bin .pow) [.caret]
  | power : OpText (.bin .pow) [.star, .star]
  | mul : OpText (.bin .mul) [.star]
  | div : OpText (.bin .div) [.slash]
  | mod : OpText (.bin .mod) [.percent]
  | add : OpText (.bin .add) [.plus]
  | sub : OpText (.bin .sub) [.minus]
  | cmp (o) : OpText (.cmp o) [.cmp o]
  | and : OpText .and [.and]
  | or : OpText .or [.or]

theorem right_eq (o : Op) : o.right = o.prec + 1 := by
  cases o <;> first | rfl | (rename_i o; cases o <;> rfl)

theorem node_lev (o : Op) (l r : Ex) : lev (o.node l r) = o.prec := by
  cases o <;> first | rfl | (rename_i o; cases o <;> rfl)

theorem prec_lt (o : Op) : 4 ≤ o.prec ∧ o.prec ≤ 10 := by
  cases o <;> first | decide | (simp [Op.prec]; done) | (rename_i o; cases o <;> decide)

theorem node_text {o : Op} {w : List Tok} (h : OpText o w) {l r : Ex} {a b : List Tok} (hl : Text l a) (hr : Text r b) :
    Text (o.node l r) (a ++ (w ++ b)) := by
  cases h
  case caret => exact .pow hl hr
  case power => exact .power hl hr
  case mul => exact .mul hl hr
  case div => exact .div hl hr
  case mod => exact .mod hl hr
  case add => exact .add hl hr
  case sub => exact .subt hl hr
  case cmp => exact .cmp hl hr
  case and => exact .and hl hr
  case or => exact .or hl hr

theorem gLevel_le (e : Ex) : gLevel e ≤ 7 := by
  cases e
  case bin o _ _ => cases o <;> simp [gLevel]
  all_goals simp [gLevel]

theorem lev_le (e : Ex) {k : Nat} (hk : k ≤ 6) : (k + 4 ≤ lev e ↔ k ≤ gLevel e) ∧ (k + 4 < lev e ↔ k < gLevel e) := by
  have := gLevel_le e
  unfold lev
  split <;> omega

theorem node_parsed (o : Op) (l r : Ex) :
    Parsed (o.node l r) = true ↔ Parsed l = true ∧ Parsed r = true ∧ o.prec ≤ lev l ∧ o.prec < lev r := by
  have hk : ∃ k, k ≤ 6 ∧ o.prec = k + 4 ∧ (Parsed (o.node l r) = (Parsed l && Parsed r && decide (k ≤ gLevel l) && decide (k < gLevel r))) := by
    cases o with
    | bin o => exact ⟨gLevel (.bin o l r), by cases o <;> simp [gLevel], by cases o <;> rfl, by rw [Op.node, Parsed]⟩
    | cmp o => exact ⟨2, by decide, rfl, by rw [Op.node, Parsed]⟩
    | and => exact ⟨1, by decide, rfl, by rw [Op.node, Parsed]⟩
    | or => exact ⟨0, by decide, rfl, by rw [Op.node, Parsed, decide_eq_true (Nat.zero_le (gLevel l)), Bool.and_true]⟩
  obtain ⟨k, h6, hp, he⟩ := hk
  rw [he, hp, (lev_le l h6).1, (lev_le r h6).2]
  simp only [Bool.and_eq_true, decide_eq_true_eq]
  constructor
  · rintro ⟨⟨⟨a, b⟩, c⟩, d⟩; exact ⟨a, b, c, d⟩
  · rintro ⟨a, b, c, d⟩; exact ⟨⟨⟨a, b⟩, c⟩, d⟩

theorem front_op {o : Op} {w : List Tok} (h : OpText o w) (r : List Tok) (hr : ∀ r', r ≠ .star :: r') :
    front (w ++ r) = some (o, r) := by
  cases h <;> try rfl
  cases r with
  | nil => rfl
  | cons t r =>
    cases t <;> first | rfl | exact absurd rfl (hr _)

theorem front_text {ts : List Tok} {o : Op} {r : List Tok} (h : front ts = some (o, r)) : ∃ w, OpText o w ∧ ts = w ++ r := by
  unfold front at h
  split at h <;> cases h
  · exact ⟨_, .power, rfl⟩
  · exact ⟨_, .caret, rfl⟩
  · exact ⟨_, .mul, rfl⟩
  · exact ⟨_, .div, rfl⟩
  · exact ⟨_, .mod, rfl⟩
  · exact ⟨_, .add, rfl⟩
  · exact ⟨_, .sub, rfl⟩
  · exact ⟨_, .cmp _, rfl⟩
  · exact ⟨_, .and, rfl⟩
  · exact ⟨_, .or, rfl⟩

/-! ### Every well grouped text is read -/

/-- For every sufficiently large bound. -/
def Big (P : Nat → Prop) : Prop := ∃ n, ∀ f, n ≤ f → P f

theorem Big.and {P Q : Nat → Prop} (h : Big P) (h' : Big Q) : Big fun f => P f ∧ Q f := by
  obtain ⟨n, h⟩ := h
  obtain ⟨m, h'⟩ := h'
  exact ⟨max n m, fun f hf => ⟨h f (by omega), h' f (by omega)⟩⟩

theorem Big.succ {P Q : Nat → Prop} (h : Big P) (hs : ∀ f, P f → Q (f + 1)) : Big Q := by
  obtain ⟨n, h⟩ := h
  refine ⟨n + 1, fun f hf => ?_⟩
  cases f with
  | zero => omega
  | succ f => exact hs f (h f (by omega))

/-- Nothing to be consumed. -/
def Ends (p : Nat) (l : Ex) (ts : List Tok) : Prop := Big fun f => more f p l ts = some (l, ts)

theorem ends {p : Nat} {ts : List Tok} (l : Ex) (h : Below p ts) : Ends p l ts := by
  refine ⟨1, fun f hf => ?_⟩
  cases f with
  | zero => omega
  | succ f =>
    rw [more]
    cases hfr : front ts with
    | none => rfl
    | some x =>
      have := h x.1 x.2 hfr
      simp only
      rw [if_neg (by omega)]

theorem below_rp (k r) : Below k (.rp :: r) := fun o r' h => by cases h
theorem below_comma (k r) : Below k (.comma :: r) := fun o r' h => by cases h
theorem below_nil (k) : Below k [] := fun o r' h => by cases h
theorem below_big {k : Nat} (hk : 11 ≤ k) (ts) : Below k ts := fun o r _ => Nat.lt_of_lt_of_le (Nat.lt_succ_of_le (prec_lt o).2) hk

/-- A text does not begin with an asterisk or a closing parenthesis. -/
theorem text_head {e ts} (h : Text e ts) : ∃ t r, ts = t :: r ∧ t ≠ .star ∧ t ≠ .rp := by
  induction h using Text.rec (motive_2 := fun _ _ _ => True) with
  | nil | one | cons => trivial
  | add _ _ h _ | subt _ _ h _ | mul _ _ h _ | div _ _ h _ | mod _ _ h _ | pow _ _ h _ | power _ _ h _ | cmp _ _ h _ | and _ _ h _ | or _ _ h _ =>
    obtain ⟨t, r, rfl, h⟩ := h
    exact ⟨t, _, rfl, h⟩
  | _ => exact ⟨_, _, rfl, nofun, nofun⟩

/-- How the parser gets on behind the text of an expression. -/
def Reaches (e : Ex) (ts : List Tok) : Prop := ∀ p rest R, p ≤ lev e → Below (lev e + 1) rest →
  (Big fun f => more f p e rest = some R) → Big fun f => expr f p (ts ++ rest) = some R

theorem start_reaches {e ts} (h : ∀ rest, Big fun f => start f (ts ++ rest) = some (e, rest)) : Reaches e ts := by
  intro p rest R _ _ hm
  refine ((h rest).and hm).succ fun f ⟨h1, h2⟩ => ?_
  rw [expr, h1]
  exact h2

theorem atom_reaches {e} {t : Tok} (h : ∀ f rest, start (f + 1) (t :: rest) = some (e, rest)) : Reaches e [t] :=
  start_reaches fun rest => ⟨1, fun f hf => by
    cases f with
    | zero => omega
    | succ f => exact h f rest⟩

/-- Reading of a whole operand. -/
theorem whole {e ts} (h : Reaches e ts) {p : Nat} {rest : List Tok} (hp : p ≤ lev e) (h1 : Below p rest) (h2 : Below (lev e + 1) rest) :
    Big fun f => expr f p (ts ++ rest) = some (e, rest) :=
  h p rest _ hp h2 (ends e h1)

theorem op_reaches {o w l r a b} (ho : OpText o w) (hl : Reaches l a) (hr : Reaches r b) (hb : Text r b)
    (h1 : o.prec ≤ lev l) (h2 : o.prec < lev r) : Reaches (o.node l r) (a ++ (w ++ b)) := by
  intro p rest R hp hrest hm
  rw [node_lev] at hp hrest
  obtain ⟨t, b', hb', hs, _⟩ := text_head hb
  have hfr : front (w ++ (b ++ rest)) = some (o, b ++ rest) := by
    refine front_op ho _ fun r' h => ?_
    rw [hb'] at h
    cases h
    exact hs rfl
  have he : a ++ (w ++ b) ++ rest = a ++ (w ++ (b ++ rest)) := by simp
  rw [he]
  refine hl p _ R (by omega) ?_ ?_
  · intro o' r' h
    rw [hfr] at h
    cases h
    omega
  · have hw := whole hr (p := o.right) (rest := rest) (by rw [right_eq]; omega) (by rw [right_eq]; exact hrest)
      (fun o' r' h => by have := hrest o' r' h; omega)
    refine (hw.and hm).succ fun f ⟨h3, h4⟩ => ?_
    rw [more, hfr]
    simp only
    rw [if_pos hp, h3]
    exact h4

theorem lev_atom {e} (h : gLevel e = 7) : lev e = 13 := if_pos h

theorem prefix_reaches {e e' : Ex} {t : Tok} {k : Nat} {ts} (hk : 11 ≤ k) (hk' : k ≤ 12)
    (hst : ∀ f r rest, expr f k r = some (e, rest) → start (f + 1) (t :: r) = some (e', rest))
    (h : Reaches e ts) (hg : gLevel e = 7) : Reaches e' (t :: ts) := by
  refine start_reaches fun rest => ?_
  have := whole h (p := k) (rest := rest) (by rw [lev_atom hg]; omega) (below_big hk rest) (below_big (by rw [lev_atom hg]; omega) rest)
  exact this.succ fun f hf => hst f _ _ hf


/-- The operand of a call in parentheses. -/
theorem paren_start {e ts} (h : Reaches e ts) (rest : List Tok) : Big fun f => expr f 0 (ts ++ .rp :: rest) = some (e, .rp :: rest) :=
  whole h (Nat.zero_le _) (below_rp _ _) (below_rp _ _)

theorem sign_parsed {e : Ex} (h : (Parsed e && gLevel e == 7) = true) : Parsed e = true ∧ gLevel e = 7 := by simpa using h

mutual
theorem reaches {e ts} : Text e ts → Parsed e = true → Reaches e ts
  | .name s, _ => atom_reaches fun f rest => by rw [start]
  | .int s, _ => atom_reaches fun f rest => by rw [start]
  | .str s, _ => atom_reaches fun f rest => by rw [start]
  | .bool s, _ => atom_reaches fun f rest => by rw [start]
  | .null, _ => atom_reaches fun f rest => by rw [start]
  | .sub (e := e) h, hp => by
    rw [Parsed] at hp
    refine start_reaches fun rest => ((paren_start (reaches h hp) rest).succ fun f hf => ?_)
    have he : ∀ ts, (Tok.lp :: (ts ++ [.rp])) ++ rest = .lp :: (ts ++ .rp :: rest) := by simp
    rw [he, start, hf]
    rfl
  | .addbs (e := e) h, hp => by
    rw [Parsed] at hp
    refine start_reaches fun rest => ((paren_start (reaches h hp) rest).succ fun f hf => ?_)
    have he : ∀ ts, (Tok.addbs :: .lp :: (ts ++ [.rp])) ++ rest = .addbs :: .lp :: (ts ++ .rp :: rest) := by simp
    rw [he, start, hf]
    rfl
  | .call (es := es) h, hp => by
    rw [Parsed] at hp
    refine start_reaches fun rest => ((args_reaches h hp rest).succ fun f hf => ?_)
    have he : ∀ g ts, (Tok.fn g :: .lp :: (ts ++ [.rp])) ++ rest = .fn g :: .lp :: (ts ++ .rp :: rest) := by simp
    rw [he, start, hf]
    rfl
  | .plus h, hp => by
    rw [Parsed] at hp
    have hp := sign_parsed hp
    exact prefix_reaches (k := 12) (by decide) (by decide) (fun f r rest h => by rw [start, h]; rfl) (reaches h hp.1) hp.2
  | .minus h, hp => by
    rw [Parsed] at hp
    have hp := sign_parsed hp
    exact prefix_reaches (k := 12) (by decide) (by decide) (fun f r rest h => by rw [start, h]; rfl) (reaches h hp.1) hp.2
  | .not h, hp => by
    rw [Parsed] at hp
    have hp := sign_parsed hp
    exact prefix_reaches (k := 11) (by decide) (by decide) (fun f r rest h => by rw [start, h]; rfl) (reaches h hp.1) hp.2
  | .add hl hr, hp => by
    have hp' := (node_parsed (.bin .add) _ _).1 hp
    exact op_reaches .add (reaches hl hp'.1) (reaches hr hp'.2.1) hr hp'.2.2.1 hp'.2.2.2
  | .subt hl hr, hp => by
    have hp' := (node_parsed (.bin .sub) _ _).1 hp
    exact op_reaches .sub (reaches hl hp'.1) (reaches hr hp'.2.1) hr hp'.2.2.1 hp'.2.2.2
  | .mul hl hr, hp => by
    have hp' := (node_parsed (.bin .mul) _ _).1 hp
    exact op_reaches .mul (reaches hl hp'.1) (reaches hr hp'.2.1) hr hp'.2.2.1 hp'.2.2.2
  | .div hl hr, hp => by
    have hp' := (node_parsed (.bin .div) _ _).1 hp
    exact op_reaches .div (reaches hl hp'.1) (reaches hr hp'.2.1) hr hp'.2.2.1 hp'.2.2.2
  | .mod hl hr, hp => by
    have hp' := (node_parsed (.bin .mod) _ _).1 hp
    exact op_reaches .mod (reaches hl hp'.1) (reaches hr hp'.2.1) hr hp'.2.2.1 hp'.2.2.2
  | .pow hl hr, hp => by
    have hp' := (node_parsed (.bin .pow) _ _).1 hp
    exact op_reaches .caret (reaches hl hp'.1) (reaches hr hp'.2.1) hr hp'.2.2.1 hp'.2.2.2
  | .power hl hr, hp => by
    have hp' := (node_parsed (.bin .pow) _ _).1 hp
    exact op_reaches .power (reaches hl hp'.1) (reaches hr hp'.2.1) hr hp'.2.2.1 hp'.2.2.2
  | .cmp (o := o) hl hr, hp => by
    have hp' := (node_parsed (.cmp o) _ _).1 hp
    exact op_reaches (.cmp o) (reaches hl hp'.1) (reaches hr hp'.2.1) hr hp'.2.2.1 hp'.2.2.2
  | .and hl hr, hp => by
    have hp' := (node_parsed .and _ _).1 hp
    exact op_reaches .and (reaches hl hp'.1) (reaches hr hp'.2.1) hr hp'.2.2.1 hp'.2.2.2
  | .or hl hr, hp => by
    have hp' := (node_parsed .or _ _).1 hp
    exact op_reaches .or (reaches hl hp'.1) (reaches hr hp'.2.1) hr hp'.2.2.1 hp'.2.2.2
theorem args_reaches {es ts} : Texts es ts → Parseds es = true → ∀ rest, Big fun f => args f (ts ++ .rp :: rest) = some (es, rest)
  | .nil, _ => fun rest => ⟨1, fun f hf => by
    cases f with
    | zero => omega
    | succ f => rfl⟩
  | .one (ts := ts) h, hp => fun rest => by
    obtain ⟨t, r, ht, _, hne⟩ := text_head h
    have := list_reaches (.one h) nofun hp rest
    refine this.succ fun f hf => ?_
    rw [ht] at hf ⊢
    cases t <;> first | exact absurd rfl hne | exact hf
  | .cons (ts := ts) h hs hne', hp => fun rest => by
    obtain ⟨t, r, ht, _, hne⟩ := text_head h
    have := list_reaches (.cons h hs hne') nofun hp rest
    refine this.succ fun f hf => ?_
    rw [ht] at hf ⊢
    cases t <;> first | exact absurd rfl hne | exact hf
theorem list_reaches {es ts} : Texts es ts → es ≠ [] → Parseds es = true → ∀ rest, Big fun f => argList f (ts ++ .rp :: rest) = some (es, rest)
  | .nil, hne, _ => absurd rfl hne
  | .one h, _, hp => fun rest => by
    simp only [Parseds, Bool.and_true] at hp
    refine (paren_start (reaches h hp) rest).succ fun f hf => ?_
    rw [argList, hf]
    rfl
  | .cons (us := us) h hs hne, _, hp => fun rest => by
    rw [Parseds, Bool.and_eq_true] at hp
    have h1 := whole (reaches h hp.1) (p := 0) (rest := .comma :: (us ++ .rp :: rest)) (Nat.zero_le _) (below_comma _ _) (below_comma _ _)
    refine (h1.and (list_reaches hs hne hp.2 rest)).succ fun f ⟨hf, hg⟩ => ?_
    have he : ∀ ts, (ts ++ Tok.comma :: us) ++ .rp :: rest = ts ++ .comma :: (us ++ .rp :: rest) := by simp
    rw [he, argList, hf]
    show (argList f _).map _ = _
    rw [hg]
    rfl
end

/-! ### Nothing else is read -/

/-- An expression has been read in front of `rest`, with operators that bind at least
as tightly as `p`. -/
structure Read (p : Nat) (ts : List Tok) (e : Ex) (rest : List Tok) : Prop where
  text : ∃ a, Text e a ∧ ts = a ++ rest
  parsed : Parsed e = true
  level : p ≤ lev e
  below : Below (lev e + 1) rest
  stop : Below p rest

/-- A first operand has been read. -/
structure ReadAtom (ts : List Tok) (e : Ex) (rest : List Tok) : Prop where
  text : ∃ a, Text e a ∧ ts = a ++ rest
  parsed : Parsed e = true
  level : gLevel e = 7

theorem lev_big {e} {k : Nat} (h : 11 ≤ k) (hk : k ≤ lev e) : gLevel e = 7 := by
  have := gLevel_le e
  unfold lev at hk
  split at hk <;> omega

/-- A sign or NOT with its operand. -/
theorem signed {f k : Nat} {t : Tok} {g : Ex → Ex} {r rest : List Tok} {e : Ex}
    (ihe : ∀ p ts e rest, expr f p ts = some (e, rest) → p ≤ 12 → Read p ts e rest)
    (h : ((expr f k r).map fun x => (g x.1, x.2)) = some (e, rest)) (h1 : 11 ≤ k) (h2 : k ≤ 12)
    (ht : ∀ {e a}, Text e a → Text (g e) (t :: a)) (hp : ∀ {e}, Parsed e = true ∧ gLevel e = 7 → Parsed (g e) = true)
    (hg : ∀ {e}, gLevel (g e) = 7) : ReadAtom (t :: r) e rest := by
  rw [Option.map_eq_some_iff] at h
  obtain ⟨⟨x, r'⟩, h3, h4⟩ := h
  cases h4
  have hx := ihe _ _ _ _ h3 h2
  obtain ⟨a, ha, rfl⟩ := hx.text
  exact ⟨⟨_, ht ha, rfl⟩, hp ⟨hx.parsed, lev_big h1 hx.level⟩, hg⟩

theorem sound (f : Nat) :
    (∀ p ts e rest, expr f p ts = some (e, rest) → p ≤ 12 → Read p ts e rest) ∧
    (∀ ts e rest, start f ts = some (e, rest) → ReadAtom ts e rest) ∧
    (∀ p l ts e rest, more f p l ts = some (e, rest) → p ≤ lev l → Below (lev l + 1) ts → Parsed l = true → ∀ a, Text l a →
      Read p (a ++ ts) e rest) ∧
    (∀ ts es rest, args f ts = some (es, rest) → Parseds es = true ∧ ∃ a, Texts es a ∧ ts = a ++ .rp :: rest) ∧
    (∀ ts es rest, argList f ts = some (es, rest) → es ≠ [] ∧ Parseds es = true ∧ ∃ a, Texts es a ∧ ts = a ++ .rp :: rest) := by
  induction f with
  | zero => exact ⟨nofun, nofun, nofun, nofun, nofun⟩
  | succ f ih =>
    obtain ⟨ihe, ihs, ihm, iha, ihl⟩ := ih
    refine ⟨?_, ?_, ?_, ?_, ?_⟩
    · intro p ts e rest h hp
      rw [expr, Option.bind_eq_some_iff] at h
      obtain ⟨⟨x, r⟩, h1, h2⟩ := h
      have hs := ihs ts x r h1
      obtain ⟨a, ha, rfl⟩ := hs.text
      exact ihm p x r e rest h2 (by rw [lev_atom hs.level]; omega) (below_big (by rw [lev_atom hs.level]; omega) _) hs.parsed a ha
    · intro ts e rest h
      unfold start at h
      split at h
      · rw [Option.bind_eq_some_iff] at h
        obtain ⟨⟨x, r⟩, h1, h2⟩ := h
        have hx := ihe _ _ _ _ h1 (by decide)
        obtain ⟨a, ha, rfl⟩ := hx.text
        simp only at h2
        split at h2
        · cases h2
          exact ⟨⟨_, .sub ha, by simp⟩, by rw [Parsed]; exact hx.parsed, rfl⟩
        · cases h2
      · exact signed ihe h (by decide) (by decide) .plus (fun hx => by rw [Parsed, hx.1, hx.2]; rfl) rfl
      · exact signed ihe h (by decide) (by decide) .minus (fun hx => by rw [Parsed, hx.1, hx.2]; rfl) rfl
      · exact signed ihe h (by decide) (by decide) .not (fun hx => by rw [Parsed, hx.1, hx.2]; rfl) rfl
      · cases h; exact ⟨⟨_, .name _, rfl⟩, by simp [Parsed], rfl⟩
      · cases h; exact ⟨⟨_, .int _, rfl⟩, by simp [Parsed], rfl⟩
      · cases h; exact ⟨⟨_, .str _, rfl⟩, by simp [Parsed], rfl⟩
      · cases h; exact ⟨⟨_, .bool _, rfl⟩, by simp [Parsed], rfl⟩
      · cases h; exact ⟨⟨_, .null, rfl⟩, by simp [Parsed], rfl⟩
      · rw [Option.bind_eq_some_iff] at h
        obtain ⟨⟨x, r⟩, h1, h2⟩ := h
        have hx := ihe _ _ _ _ h1 (by decide)
        obtain ⟨a, ha, rfl⟩ := hx.text
        simp only at h2
        split at h2
        · cases h2
          exact ⟨⟨_, .addbs ha, by simp⟩, by rw [Parsed]; exact hx.parsed, rfl⟩
        · cases h2
      · rw [Option.map_eq_some_iff] at h
        obtain ⟨⟨xs, r⟩, h1, h2⟩ := h
        cases h2
        obtain ⟨hp, a, ha, rfl⟩ := iha _ _ _ h1
        exact ⟨⟨_, .call ha, by simp⟩, by rw [Parsed]; exact hp, rfl⟩
      · cases h
    · intro p l ts e rest h hp hb hl a ha
      rw [more] at h
      cases hfr : front ts with
      | none =>
        rw [hfr] at h
        cases h
        exact ⟨⟨a, ha, rfl⟩, hl, hp, hb, fun o r h => by rw [hfr] at h; cases h⟩
      | some x =>
        obtain ⟨o, r⟩ := x
        rw [hfr] at h
        simp only at h
        have ho := hb o r hfr
        split at h
        · rename_i hpo
          rw [Option.bind_eq_some_iff] at h
          obtain ⟨⟨x, r'⟩, h1, h2⟩ := h
          have hx := ihe _ _ _ _ h1 (by rw [right_eq]; have := prec_lt o; omega)
          obtain ⟨b, hbt, hbr⟩ := hx.text
          obtain ⟨w, hw, hts⟩ := front_text hfr
          have hlev := hx.level
          have hstop := hx.stop
          rw [right_eq] at hlev hstop
          have := ihm p (o.node l x) r' e rest h2 (by rw [node_lev]; exact hpo) (by rw [node_lev]; exact hstop)
            ((node_parsed o l x).2 ⟨hl, hx.parsed, by omega, by omega⟩) _ (node_text hw ha hbt)
          rw [hts, hbr]
          simpa using this
        · rename_i hpo
          cases h
          refine ⟨⟨a, ha, rfl⟩, hl, hp, hb, fun o' r' h => ?_⟩
          rw [hfr] at h
          cases h
          omega
    · intro ts es rest h
      unfold args at h
      split at h
      · cases h
        exact ⟨rfl, [], .nil, rfl⟩
      · exact (ihl _ _ _ h).2
    · intro ts es rest h
      rw [argList, Option.bind_eq_some_iff] at h
      obtain ⟨⟨x, r⟩, h1, h2⟩ := h
      have hx := ihe _ _ _ _ h1 (by decide)
      obtain ⟨a, ha, rfl⟩ := hx.text
      simp only at h2
      split at h2
      · cases h2
        exact ⟨nofun, by rw [Parseds, hx.parsed]; rfl, a, .one ha, rfl⟩
      · rw [Option.map_eq_some_iff] at h2
        obtain ⟨⟨ys, r2⟩, h3, h4⟩ := h2
        cases h4
        obtain ⟨hne, hps, b, hb, hr2⟩ := ihl _ _ _ h3
        refine ⟨nofun, by rw [Parseds, hx.parsed, hps]; rfl, a ++ .comma :: b, .cons ha hb hne, ?_⟩
        rw [hr2]
        simp
      · cases h2

end PrecAux
open PrecAux

/-- C142: the parser reads a sequence of tokens as an expression exactly if they are
the tokens of that expression and it is grouped by the levels of the grammar: OR, AND,
comparison, `+ -`, `%`, `* /`, power from loose to tight, all from left to right, and
signs and NOT tighter than all of them. -/
theorem C142_grammar_iff (ts : List Tok) (e : Ex) : Parses ts e ↔ Text e ts ∧ Parsed e = true := by
  constructor
  · rintro ⟨f, h⟩
    have hr := (sound f).1 _ _ _ _ h (by decide)
    obtain ⟨a, ha, h⟩ := hr.text
    rw [List.append_nil] at h
    exact ⟨h ▸ ha, hr.parsed⟩
  · rintro ⟨ht, hp⟩
    obtain ⟨n, h⟩ := whole (reaches ht hp) (p := 0) (rest := []) (Nat.zero_le _) (below_nil _) (below_nil _)
    have := h n (Nat.le_refl n)
    rw [List.append_nil] at this
    exact ⟨n, this⟩

-- `a % b * c` is `a % (b * c)` and `a * b % c` is `(a * b) % c`; `-a ** b` is `(-a) ** b`
example : Parses [.name "a", .percent, .name "b", .star, .name "c"] (.bin .mod na (.bin .mul nb nc)) := ⟨20, rfl⟩
example : Parses [.name "a", .star, .name "b", .percent, .name "c"] (.bin .mod (.bin .mul na nb) nc) := ⟨20, rfl⟩
example : Parses [.minus, .name "a", .star, .star, .name "b"] (.bin .pow (.minus na) nb) := ⟨20, rfl⟩

/-- C142: tokens are read as one expression only. -/
theorem C142_unique {ts : List Tok} {e e' : Ex} (h : Parses ts e) (h' : Parses ts e') : e = e' := by
  have h := (C142_grammar_iff _ _).1 h
  have h' := (C142_grammar_iff _ _).1 h'
  obtain ⟨n, h⟩ := whole (reaches h.1 h.2) (p := 0) (rest := []) (Nat.zero_le _) (below_nil _) (below_nil _)
  obtain ⟨m, h'⟩ := whole (reaches h'.1 h'.2) (p := 0) (rest := []) (Nat.zero_le _) (below_nil _) (below_nil _)
  have h1 : expr (max n m) 0 (ts ++ []) = some (e, []) := h (max n m) (by omega)
  have h2 : expr (max n m) 0 (ts ++ []) = some (e', []) := h' (max n m) (by omega)
  rw [h1] at h2
  cases h2
  rfl

-- `a - b - c` is not `a - (b - c)`
example : ¬ Parses [.name "a", .minus, .name "b", .minus, .name "c"] (.bin .sub na (.bin .sub nb nc)) := fun h => by
  have h' : Parses [.name "a", .minus, .name "b", .minus, .name "c"] (.bin .sub (.bin .sub na nb) nc) := ⟨20, rfl⟩
  have := C142_unique h h'
  simp [na, nb, nc] at this

/-- C142: an arithmetic expression of names, numbers, `+ - * / ^` and parentheses has
in Python the value that it has with FoxPro's grouping. -/
theorem C142_arithmetic_partial {V : Type} {A : Alg V} (L : Laws A) (e : Ex) (ha : Arith e = true) (hp : Parsed e = true)
    (ts : List Tok) (ht : Text e ts) : ∃ e', Parses ts e' ∧ ∃ p, Reads (Expr.text e') p ∧ eval A p = fox A e :=
  ⟨e, (C142_grammar_iff _ _).2 ⟨ht, hp⟩, C38_arithmetic_partial L e ha hp⟩

-- `a - b * c ** 2`
example : Arith (.bin .sub na (.bin .mul nb (.bin .pow nc (.int 2)))) = true ∧ Parsed (.bin .sub na (.bin .mul nb (.bin .pow nc (.int 2)))) = true ∧
    Text (.bin .sub na (.bin .mul nb (.bin .pow nc (.int 2)))) [.name "a", .minus, .name "b", .star, .name "c", .star, .star, .int 2] :=
  ⟨rfl, rfl, .subt (.name _) (.mul (.name _) (.power (.name _) (.int _)))⟩

namespace PrecAux
open Expr ExprAux

variable {V : Type} {A : Alg V}

/-- Where the parser puts a NOT in front of an operand: it takes the first part only. -/
def under : Ex → Ex
  | .bin o l r => .bin o (under l) r
  | e => .not e

/-- A NOT in front of a condition. -/
def mkNot : Ex → Ex
  | .cmp o l r => .cmp o (under l) r
  | e => .not e

/-- What the parser makes of a condition. -/
def tree : Cnd → Ex
  | .atom e => e
  | .cmp o l r => .cmp o l r
  | .paren c => .sub (tree c)
  | .not c => mkNot (tree c)
  | .and l r => .and (tree l) (tree r)
  | .or l r => .or (tree l) (tree r)

/-- Several NOTs. -/
def unders : Nat → Ex → Ex
  | 0, e => e
  | n + 1, e => under (unders n e)

theorem under_text {e ts} (h : Text e ts) : Text (under e) (.not :: ts) := by
  cases e
  case bin o l r =>
    rw [under]
    cases h
    case add h1 h2 => exact .add (under_text h1) h2
    case subt h1 h2 => exact .subt (under_text h1) h2
    case mul h1 h2 => exact .mul (under_text h1) h2
    case div h1 h2 => exact .div (under_text h1) h2
    case mod h1 h2 => exact .mod (under_text h1) h2
    case pow h1 h2 => exact .pow (under_text h1) h2
    case power h1 h2 => exact .power (under_text h1) h2
  all_goals exact .not h

theorem under_level (e : Ex) (h : 2 < gLevel e) : gLevel (under e) = gLevel e := by
  cases e
  case bin o l r => cases o <;> rfl
  case cmp => exact absurd h (by simp [gLevel])
  case and => exact absurd h (by simp [gLevel])
  case or => exact absurd h (by simp [gLevel])
  all_goals rfl

theorem under_parsed : ∀ e, Parsed e = true → 2 < gLevel e → Parsed (under e) = true
  | .bin o l r, h, hg => by
    rw [under]
    have h' := (node_parsed (.bin o) l r).1 h
    refine (node_parsed (.bin o) (under l) r).2 ⟨?_, h'.2.1, ?_, h'.2.2.2⟩
    all_goals
      have hl : 2 < gLevel l := by
        have := h'.2.2.1
        have h7 : 7 ≤ (Op.bin o).prec := by cases o <;> decide
        have := ((lev_le l (k := 3) (by decide)).1).1 (by omega)
        omega
    · exact under_parsed l h'.1 hl
    · have : lev (under l) = lev l := by unfold lev; rw [under_level l hl]
      rw [this]
      exact h'.2.2.1
  | .name _, h, _ => rfl
  | .int _, h, _ => rfl
  | .str _, h, _ => rfl
  | .bool _, h, _ => rfl
  | .null, h, _ => rfl
  | .sub _, h, _ => by show Parsed (.not _) = true; rw [Parsed, h]; rfl
  | .plus _, h, _ => by show Parsed (.not _) = true; rw [Parsed, h]; rfl
  | .minus _, h, _ => by show Parsed (.not _) = true; rw [Parsed, h]; rfl
  | .not _, h, _ => by show Parsed (.not _) = true; rw [Parsed, h]; rfl
  | .addbs _, h, _ => by show Parsed (.not _) = true; rw [Parsed, h]; rfl
  | .call _ _, h, _ => by show Parsed (.not _) = true; rw [Parsed, h]; rfl
  | .cmp _ _ _, _, hg => absurd hg (by simp [gLevel])
  | .and _ _, _, hg => absurd hg (by simp [gLevel])
  | .or _ _, _, hg => absurd hg (by simp [gLevel])

theorem atomic_level {e} (h : Atomic e = true) : gLevel e = 7 := by
  cases e <;> first | rfl | cases h

theorem not_text {e ts} (h : Text e ts) (hg : gLevel e = 7 ∨ ∃ o l r, e = .cmp o l r ∧ 2 < gLevel l) (hp : Parsed e = true) :
    Text (mkNot e) (.not :: ts) ∧ Parsed (mkNot e) = true ∧
      (gLevel (mkNot e) = 7 ∨ ∃ o l r, mkNot e = .cmp o l r ∧ 2 < gLevel l) := by
  rcases hg with hg | ⟨o, l, r, rfl, hl⟩
  · have he : mkNot e = .not e := by cases e <;> first | rfl | (exact absurd hg (by simp [gLevel]))
    rw [he]
    exact ⟨.not h, by rw [Parsed, hp, hg]; rfl, .inl rfl⟩
  · cases h
    rename_i h1 h2
    have hp' := (node_parsed (.cmp o) l r).1 hp
    rw [mkNot]
    refine ⟨.cmp (under_text h1) h2, (node_parsed (.cmp o) (under l) r).2 ⟨under_parsed l hp'.1 hl, hp'.2.1, ?_, hp'.2.2.2⟩,
      .inr ⟨o, _, r, rfl, by rw [under_level l hl]; exact hl⟩⟩
    unfold lev
    rw [under_level l hl]
    exact hp'.2.2.1

theorem tree_text {k c ts} (h : CText k c ts) (hg : Good A c) :
    Text (tree c) ts ∧ Parsed (tree c) = true ∧ (1 ≤ k → 1 ≤ gLevel (tree c)) ∧
      (2 ≤ k → gLevel (tree c) = 7 ∨ ∃ o l r, tree c = .cmp o l r ∧ 2 < gLevel l) := by
  induction h with
  | atom h => exact ⟨h, hg.2.1, fun _ => by rw [tree, atomic_level hg.1]; decide, fun _ => .inl (atomic_level hg.1)⟩
  | @cmp o l r _ _ hl hr =>
    obtain ⟨⟨_, h1, h2⟩, ⟨_, h3, h4⟩, _⟩ := hg
    refine ⟨.cmp hl hr, (node_parsed (.cmp o) l r).2 ⟨h1, h3, ?_, ?_⟩, fun _ => by simp [tree, gLevel], fun _ => .inr ⟨o, l, r, rfl, h2⟩⟩
    · exact ((lev_le l (k := 2) (by decide)).1).2 (by omega)
    · exact ((lev_le r (k := 2) (by decide)).2).2 h4
  | paren _ ih =>
    have := ih hg
    exact ⟨.sub this.1, by rw [tree, Parsed]; exact this.2.1, fun _ => by simp [tree, gLevel], fun _ => .inl rfl⟩
  | not _ hk ih =>
    have h' := ih hg.1
    have := not_text h'.1 (h'.2.2.2 hk) h'.2.1
    refine ⟨this.1, this.2.1, fun _ => ?_, fun _ => this.2.2⟩
    rcases this.2.2 with h | ⟨o, l, r, h, _⟩
    · rw [tree, h]; decide
    · rw [tree, h]; simp [gLevel]
  | @and k k' l r _ _ _ _ hk hk' ihl ihr =>
    have hl := ihl hg.1
    have hr := ihr hg.2
    have hr2 : 2 ≤ gLevel (tree r) := by
      rcases hr.2.2.2 hk' with h | ⟨_, _, _, h, _⟩
      · omega
      · rw [h]; simp [gLevel]
    refine ⟨.and hl.1 hr.1, (node_parsed .and _ _).2 ⟨hl.2.1, hr.2.1, ?_, ?_⟩, fun _ => by simp [tree, gLevel], fun h => by omega⟩
    · exact ((lev_le (tree l) (k := 1) (by decide)).1).2 (hl.2.2.1 hk)
    · exact ((lev_le (tree r) (k := 1) (by decide)).2).2 hr2
  | @or k k' l r _ _ _ _ hk' ihl ihr =>
    have hl := ihl hg.1
    have hr := ihr hg.2
    refine ⟨.or hl.1 hr.1, (node_parsed .or _ _).2 ⟨hl.2.1, hr.2.1, ?_, ?_⟩, fun h => by omega, fun h => by omega⟩
    · exact ((lev_le (tree l) (k := 0) (by decide)).1).2 (Nat.zero_le _)
    · exact ((lev_le (tree r) (k := 0) (by decide)).2).2 (hr.2.2.1 hk')

/-! ### The Python text -/

def nots : Nat → Ex → Ex
  | 0, e => e
  | n + 1, e => .not (nots n e)

theorem nots_repr (sk : Bool) {e : Ex} (h : ∀ s, conv sk (clean e) ≠ .str s) (ho : (conv sk (clean e)).isOp = false) : ∀ n,
    pyRepr (conv sk (clean (nots n e))) = List.replicate n .not ++ pyRepr (conv sk (clean e)) ∧
    wrap 2 (conv sk (clean (nots n e))) = List.replicate n .not ++ pyRepr (conv sk (clean e))
  | 0 => ⟨rfl, wrap_plain h ho 2⟩
  | n + 1 => by
    have := (nots_repr sk h ho n).2
    rw [nots, clean, conv, pyRepr, wrap, this]
    exact ⟨rfl, rfl⟩

theorem func_str {f : Fn} {vs : List Py} (h1 : f ≠ .chr) (h2 : f ≠ .space) : ∀ s, func f vs ≠ .str s := by
  intro s
  unfold func
  split
  all_goals first | exact absurd rfl h1 | exact absurd rfl h2 | (intro h; cases h; done) | skip
  unfold pyInt
  split <;> intro h <;> cases h

theorem base_conv (sk : Bool) {e : Ex} (h : Base e = true) :
    (∀ s, conv sk (clean e) ≠ .str s) ∧ (conv sk (clean e)).isOp = false ∧ isSub e = false ∧ isPow e = false := by
  cases e <;> try (cases h; done)
  case name => exact ⟨by simp [clean, conv], by simp [clean, conv, Py.isOp], rfl, rfl⟩
  case int => exact ⟨by simp [clean, conv], by simp [clean, conv, Py.isOp], rfl, rfl⟩
  case minus e =>
    have : ∃ ts, conv sk (clean (.minus e)) = .code ts := by
      rw [clean]
      unfold mkMinus
      split <;> rw [conv] <;> exact ⟨_, rfl⟩
    obtain ⟨ts, h⟩ := this
    rw [h]
    exact ⟨nofun, rfl, rfl, rfl⟩
  case call f as =>
    rw [clean, conv]
    refine ⟨func_str ?_ ?_, func_op _ _, rfl, rfl⟩
    · rintro rfl; cases h
    · rintro rfl; cases h

theorem unders_bin (o : AOp) (l r : Ex) : ∀ n, unders n (.bin o l r) = .bin o (unders n l) r
  | 0 => rfl
  | n + 1 => by rw [unders, unders_bin o l r n]; rfl

theorem unders_nots {e : Ex} (h : ∀ o l r, e ≠ .bin o l r) : ∀ n, unders n e = nots n e
  | 0 => rfl
  | n + 1 => by
    rw [unders, unders_nots h n, nots]
    cases n with
    | zero =>
      rw [nots]
      cases e <;> first | rfl | exact absurd rfl (h _ _ _)
    | succ n => rfl

theorem base_notBin {e : Ex} (h : Base e = true) : ∀ o l r, e ≠ .bin o l r := by
  rintro o l r rfl
  cases h

theorem spine_notSub {e : Ex} (h : Spine e = true) : isSub e = false := by
  cases e <;> first | rfl | cases h

theorem isSub_nots {e : Ex} (h : isSub e = false) : ∀ n, isSub (nots n e) = false
  | 0 => h
  | _ + 1 => rfl

theorem isPow_nots {e : Ex} (h : isPow e = false) : ∀ n, isPow (nots n e) = false
  | 0 => h
  | _ + 1 => rfl

theorem isSub_unders {e : Ex} (h : isSub e = false) (n : Nat) : isSub (unders n e) = false := by
  by_cases hb : ∃ o l r, e = .bin o l r
  · obtain ⟨o, l, r, rfl⟩ := hb
    rw [unders_bin]
    rfl
  · rw [unders_nots (fun o l r he => hb ⟨o, l, r, he⟩)]
    exact isSub_nots h n

theorem opCode_repr {o : AOp} (ho : o ≠ .add) (l r : Py) : pyRepr (opCode o l r) = pyRepr l ++ .bin o.py :: pyRepr r := by
  cases o <;> first | exact absurd rfl ho | (rw [opCode, repr_code]; nofun)

theorem powLeft_id {e : Ex} (h : isPow e = false) : powLeft e = e := by
  cases e <;> try rfl
  rename_i o _ _
  cases o <;> first | rfl | cases h

theorem conv_other {o : AOp} (sk : Bool) (ho : o ≠ .add) (l r : Ex) :
    conv sk (.bin o l r) = opCode o (parens l (conv sk l)) (parens r (conv sk r)) := by
  cases o <;> first | exact absurd rfl ho | (rw [conv]; nofun)

theorem clean_other {o : AOp} (ho : o ≠ .pow) (l r : Ex) : clean (.bin o l r) = .bin o (clean l) (clean r) := by
  cases o <;> first | exact absurd rfl ho | (rw [clean]; nofun)

theorem bin_repr (sk : Bool) {o : AOp} (ho : o ≠ .add) (l r : Ex) (hs : isSub l = false) (hp : o = .pow → isPow l = false) :
    pyRepr (conv sk (clean (.bin o l r))) = pyRepr (conv sk (clean l)) ++
      .bin o.py :: pyRepr (parens (if o = .pow then powRight (clean r) else clean r) (conv sk (if o = .pow then powRight (clean r) else clean r))) := by
  by_cases h : o = .pow
  · subst h
    rw [clean, conv_other sk ho, opCode_repr ho, powLeft_id (by rw [isPow_clean]; exact hp rfl), parens_not (by rw [isSub_clean]; exact hs)]
    rfl
  · rw [clean_other h, conv_other sk ho, opCode_repr ho, parens_not (by rw [isSub_clean]; exact hs), if_neg h]

theorem spine_repr (sk : Bool) (n : Nat) : ∀ e, Spine e = true →
    pyRepr (conv sk (clean (unders n e))) = List.replicate n .not ++ pyRepr (conv sk (clean e))
  | .bin o l r, h => by
    rw [unders_bin]
    have ho : o ≠ .add := by rintro rfl; cases h
    have hl : Spine l = true ∧ (o = .pow → Base l = true) := by
      cases o
      case add => exact absurd rfl ho
      case pow =>
        have hb : Base l = true := h
        refine ⟨?_, fun _ => hb⟩
        cases l <;> first | exact hb | cases hb
      all_goals exact ⟨h, nofun⟩
    have hpow : o = .pow → isPow (unders n l) = false := fun hp => by
      rw [unders_nots (base_notBin (hl.2 hp))]
      exact isPow_nots (base_conv sk (hl.2 hp)).2.2.2 n
    rw [bin_repr sk ho _ r (isSub_unders (spine_notSub hl.1) n) hpow,
      bin_repr sk ho l r (spine_notSub hl.1) (fun hp => (base_conv sk (hl.2 hp)).2.2.2), spine_repr sk n l hl.1, List.append_assoc]
  | .name s, h => base_repr sk n h
  | .int s, h => base_repr sk n h
  | .minus s, h => base_repr sk n h
  | .call f as, h => base_repr sk n h
where
  base_repr (sk : Bool) (n : Nat) {e : Ex} (h : Base e = true) :
      pyRepr (conv sk (clean (unders n e))) = List.replicate n .not ++ pyRepr (conv sk (clean e)) := by
    rw [unders_nots (base_notBin h)]
    have := base_conv sk h
    exact (nots_repr sk this.1 this.2.1 n).1

theorem after_repr (sk : Bool) (n : Nat) (e : Ex) (h : AfterNot e = true) :
    pyRepr (conv sk (clean (unders n e))) = List.replicate n .not ++ pyRepr (conv sk (clean e)) := by
  by_cases hs : ∃ x, e = .sub x
  · obtain ⟨x, rfl⟩ := hs
    have hx : Arith (.sub x) = true := h
    rw [unders_nots (fun _ _ _ h => by cases h)]
    exact (nots_repr sk (arith_notStr sk _ hx) (by rw [conv_op]; exact arith_notLogic _ hx) n).1
  · refine spine_repr sk n e ?_
    cases e <;> first | exact h | exact absurd ⟨_, rfl⟩ hs

/-! ### The value -/

/-- Several NOTs in front of a condition. -/
def negs : Nat → Cnd → Cnd
  | 0, c => c
  | n + 1, c => .not (negs n c)

theorem tree_negs (o : FCmp) (l r : Ex) : ∀ n, tree (negs n (.cmp o l r)) = .cmp o (unders n l) r
  | 0 => rfl
  | n + 1 => by rw [negs, tree, tree_negs o l r n]; rfl

theorem tree_cmp : ∀ c, Good A c → ∀ o l r, tree c = .cmp o l r → ∃ n o l r, c = negs n (.cmp o l r)
  | .atom e, h, o, l, r, he => by
    have := h.1
    rw [tree] at he
    rw [he] at this
    cases this
  | .cmp o l r, _, _, _, _, _ => ⟨0, o, l, r, rfl⟩
  | .paren c, _, _, _, _, he => by cases he
  | .not c, h, o, l, r, he => by
    rw [tree] at he
    have : ∃ o l r, tree c = .cmp o l r := by
      cases hc : tree c <;> rw [hc] at he <;> first | exact ⟨_, _, _, rfl⟩ | cases he
    obtain ⟨o', l', r', hc⟩ := this
    obtain ⟨n, o, l, r, rfl⟩ := tree_cmp c h.1 o' l' r' hc
    exact ⟨n + 1, o, l, r, rfl⟩
  | .and _ _, _, _, _, _, he => by cases he
  | .or _ _, _, _, _, _, he => by cases he

theorem good_negs {o : FCmp} {l r : Ex} : ∀ n, Good A (negs n (.cmp o l r)) →
    Good A (.cmp o l r) ∧ (n = 0 ∨ AfterNot l = true)
  | 0, h => ⟨h, .inl rfl⟩
  | n + 1, h => by
    have hf : ∀ n, NotFits (negs n (.cmp o l r)) = AfterNot l := by
      intro n
      induction n with
      | zero => rfl
      | succ n ih => exact ih
    have := h.2
    rw [hf] at this
    exact ⟨(good_negs n h.1).1, .inr this⟩

theorem den_negs (L : Laws A) {o : FCmp} {l r : Ex} {ts} (h : Den A 3 ts (A.ofBool (CHolds A (.cmp o l r)))) : ∀ n,
    Den A 3 (List.replicate n .not ++ ts) (A.ofBool (CHolds A (negs n (.cmp o l r))))
  | 0 => h
  | n + 1 => by
    have := Den.not (den_negs L h n)
    rw [not_bool L] at this
    exact this

theorem good_conv (L : Laws A) (sk : Bool) : ∀ c, Good A c →
    ∃ k, Conv A k (conv sk (clean (tree c))) (A.ofBool (CHolds A c)) ∧ (isLogic (tree c) = true → k = strength (tree c)) ∧
      (isLogic (tree c) = false → 3 ≤ k)
  | .atom e, h => by
    obtain ⟨h0, _, h1, h2, h3, b, hb⟩ := h
    refine ⟨strength e, ?_, fun _ => rfl, fun _ => h3⟩
    have := conv_sound L e h1 h2 sk
    rw [hb] at this
    rw [CHolds, hb, L.truthBool]
    exact this
  | .cmp o l r, h => ⟨3, .code (cmp_den L sk 0 h), nofun, fun _ => Nat.le_refl 3⟩
  | .paren c, h => by
    rw [tree, clean_sub, conv_mkSub, CHolds, strength]
    exact good_conv L sk c h
  | .not c, h => by
    by_cases hc : ∃ n o l r, c = negs n (.cmp o l r)
    · obtain ⟨n, o, l, r, rfl⟩ := hc
      have ht : tree (.not (negs n (.cmp o l r))) = .cmp o (unders (n + 1) l) r := tree_negs o l r (n + 1)
      rw [ht]
      refine ⟨3, ?_, nofun, fun _ => Nat.le_refl 3⟩
      rw [clean, conv]
      exact .code (cmp_den L sk (n + 1) h)
    · have ht : tree (.not c) = .not (tree c) := by
        rw [tree]
        cases hx : tree c <;> first | rfl | exact absurd (tree_cmp c h.1 _ _ _ hx) hc
      rw [ht]
      obtain ⟨k, hc, h1, h2⟩ := good_conv L sk c h.1
      refine ⟨3, ?_, fun _ => rfl, nofun⟩
      rw [clean, conv, CHolds]
      refine { int := nofun, str := nofun, bool := nofun, den := ?_ }
      rw [pyRepr]
      have := Den.not (den_wrap_of L hc h1 h2 (ExprAux.noText L (.inl ⟨_, rfl⟩)) 2 (by decide))
      rwa [not_bool L] at this
  | .and l r, h => by
    obtain ⟨k, hc, h1, h2⟩ := good_conv L sk l h.1
    obtain ⟨k', hc', h1', h2'⟩ := good_conv L sk r h.2
    refine ⟨2, ?_, fun _ => rfl, nofun⟩
    rw [tree, clean, conv, CHolds]
    refine { int := nofun, str := nofun, bool := nofun, den := ?_ }
    rw [pyRepr]
    have := Den.and (den_wrap_of L hc h1 h2 (ExprAux.noText L (.inl ⟨_, rfl⟩)) 1 (by decide)) (den_wrap_of L hc' h1' h2' (ExprAux.noText L (.inl ⟨_, rfl⟩)) 1 (by decide))
    rw [choose_bool L] at this
    cases hh : CHolds A l
    · simpa [hh] using this
    · simpa [hh] using this
  | .or l r, h => by
    obtain ⟨k, hc, h1, h2⟩ := good_conv L sk l h.1
    obtain ⟨k', hc', h1', h2'⟩ := good_conv L sk r h.2
    refine ⟨1, ?_, fun _ => rfl, nofun⟩
    rw [tree, clean, conv, CHolds]
    refine { int := nofun, str := nofun, bool := nofun, den := ?_ }
    rw [pyRepr]
    have := Den.or (den_wrap_of L hc h1 h2 (ExprAux.noText L (.inl ⟨_, rfl⟩)) 0 (by decide)) (den_wrap_of L hc' h1' h2' (ExprAux.noText L (.inl ⟨_, rfl⟩)) 0 (by decide))
    rw [choose_bool L] at this
    cases hh : CHolds A l
    · simpa [hh] using this
    · simpa [hh] using this
where
  cmp_den (L : Laws A) (sk : Bool) {o : FCmp} {l r : Ex} (n : Nat) (h : Good A (negs n (.cmp o l r))) :
      Den A 3 (pyRepr (conv sk (clean (unders n l))) ++ .cmp o.py :: pyRepr (conv sk (clean r)))
        (A.ofBool (CHolds A (negs n (.cmp o l r)))) := by
    obtain ⟨⟨⟨hl, _⟩, ⟨hr, _⟩, b, hb⟩, ha⟩ := good_negs n h
    have hd := Den.cmp (o := o.py) ((conv_sound L l hl.1 hl.2.1 sk).den.weak hl.2.2) ((conv_sound L r hr.1 hr.2.1 sk).den.weak hr.2.2)
    have hd' : Den A 3 (pyRepr (conv sk (clean l)) ++ .cmp o.py :: pyRepr (conv sk (clean r))) (A.ofBool (CHolds A (.cmp o l r))) := by
      rw [CHolds, hb, L.truthBool]
      rw [hb] at hd
      exact hd.weak (by decide)
    have := den_negs L hd' n
    rcases ha with rfl | ha
    · exact hd'
    · rw [after_repr sk n l ha, List.append_assoc]
      exact this

end PrecAux

/-- C142: a condition of AND, OR, NOT, comparisons and parentheses, written with as few
parentheses as FoxPro allows, is converted to Python text whose value is the truth value
that FoxPro gives to it. The parser lets NOT take only the first part of the comparison
behind it, and the missing parentheses in the text undo that, unless the left operand of
the comparison is excluded by `NotFits`. -/
theorem C142_condition_partial {V : Type} {A : Alg V} (L : Laws A) (c : Cnd) (hg : Good A c) (k : Nat) (ts : List Tok)
    (ht : CText k c ts) : ∃ e, Parses ts e ∧ ∃ p, Reads (Expr.text e) p ∧ eval A p = A.ofBool (CHolds A c) := by
  have h := tree_text ht hg
  obtain ⟨k, hc, _⟩ := good_conv L false c hg
  exact ⟨tree c, (C142_grammar_iff _ _).2 ⟨h.1, h.2.1⟩, hc.den.reads⟩

section
/-- `NOT a * b - 1 > c OR NOT NOT (a = b) AND b # c` -/
def sampleC : Cnd :=
  .or (.not (.cmp .gt (.bin .sub (.bin .mul na nb) (.int 1)) nc)) (.and (.not (.not (.paren (.cmp .eq na nb)))) (.cmp .ne nb nc))

example : Good (py env3) sampleC ∧ CHolds (py env3) sampleC = false ∧
    CText 0 sampleC [.not, .name "a", .star, .name "b", .minus, .int 1, .cmp .gt, .name "c", .or, .not, .not, .lp, .name "a", .cmp .eq,
      .name "b", .rp, .and, .name "b", .cmp .ne, .name "c"] := by
  have hop : ∀ e, Arith e = true → Parsed e = true → 2 < gLevel e → Compared (py env3) e :=
    fun e h1 h2 h3 => ⟨C39_operand e h1 h2, h2, h3⟩
  refine ⟨⟨⟨⟨hop _ rfl rfl (by decide), hop _ rfl rfl (by decide), _, rfl⟩, rfl⟩,
    ⟨⟨⟨hop _ rfl rfl (by decide), hop _ rfl rfl (by decide), _, rfl⟩, rfl⟩, rfl⟩,
    hop _ rfl rfl (by decide), hop _ rfl rfl (by decide), _, rfl⟩, by decide +kernel, ?_⟩
  exact .or (.not (.cmp (.subt (.mul (.name _) (.name _)) (.int _)) (.name _)) (by decide))
    (.and (.not (.not (.paren (.cmp (.name _) (.name _))) (by decide)) (by decide)) (.cmp (.name _) (.name _)) (by decide) (by decide)) (by decide)
-- the parser groups `NOT a * b > c` as `((NOT a) * b) > c`, and the text has no parentheses
example : Parses [.not, .name "a", .star, .name "b", .cmp .gt, .name "c"] (.cmp .gt (.bin .mul (.not na) nb) nc) ∧
    Expr.text (.cmp .gt (.bin .mul (.not na) nb) nc) = [.not, .name "a", .bin .mul, .name "b", .cmp .gt, .name "c"] :=
  ⟨⟨20, rfl⟩, by decide +kernel⟩
end

/-- C142 does not hold for NOT in front of a sum that is compared: `NOT a + b = c`
becomes `os.path.join(not a, b) == c`, whatever the names. -/
theorem C142_sum_fails (a b c : String) (e : Ex) (h : Parses [.not, .name a, .plus, .name b, .cmp .eq, .name c] e) :
    Expr.text e = [.name "os", .dot, .name "path", .dot, .name "join", .lp, .not, .name a, .comma, .name b, .rp, .cmp .eq, .name c] := by
  have h' : Parses [.not, .name a, .plus, .name b, .cmp .eq, .name c] (.cmp .eq (.bin .add (.not (.name a)) (.name b)) (.name c)) := ⟨20, rfl⟩
  rw [C142_unique h h']
  rfl

/-- Nor for NOT in front of parentheses that are only a part of the left operand:
`NOT (a + b) * c = d` becomes `not a + b * c == d`. -/
theorem C142_product_fails (a b c d : String) (e : Ex)
    (h : Parses [.not, .lp, .name a, .plus, .name b, .rp, .star, .name c, .cmp .eq, .name d] e) :
    Expr.text e = [.not, .name a, .bin .add, .name b, .bin .mul, .name c, .cmp .eq, .name d] := by
  have h' : Parses [.not, .lp, .name a, .plus, .name b, .rp, .star, .name c, .cmp .eq, .name d]
    (.cmp .eq (.bin .mul (.not (.sub (.bin .add (.name a) (.name b)))) (.name c)) (.name d)) := ⟨20, rfl⟩
  rw [C142_unique h h']
  rfl

/-- Nor for a power of a power: `NOT a ^ b ^ c = d` becomes `(not a ** b) ** c == d`. -/
theorem C142_power_fails (a b c d : String) (e : Ex)
    (h : Parses [.not, .name a, .caret, .name b, .caret, .name c, .cmp .eq, .name d] e) :
    Expr.text e = [.lp, .not, .name a, .bin .pow, .name b, .rp, .bin .pow, .name c, .cmp .eq, .name d] := by
  have h' : Parses [.not, .name a, .caret, .name b, .caret, .name c, .cmp .eq, .name d]
    (.cmp .eq (.bin .pow (.bin .pow (.not (.name a)) (.name b)) (.name c)) (.name d)) := ⟨20, rfl⟩
  rw [C142_unique h h']
  rfl

/-- Nor for a comparison of the result of a comparison: `a = b = c` becomes `a == b == c`,
which Python reads as `a == b and b == c`. -/
theorem C142_chain_fails (a b c : String) (e : Ex) (h : Parses [.name a, .cmp .eq, .name b, .cmp .eq, .name c] e) :
    e = .cmp .eq (.cmp .eq (.name a) (.name b)) (.name c) ∧
    Reads (Expr.text e) (.chain (.cmp (.name a) .eq (.name b)) .eq (.name c)) := by
  have h' : Parses [.name a, .cmp .eq, .name b, .cmp .eq, .name c] (.cmp .eq (.cmp .eq (.name a) (.name b)) (.name c)) := ⟨20, rfl⟩
  rw [C142_unique h h']
  exact ⟨rfl, 20, rfl⟩

section
/-- 1, 2, 3, 9 and `.T.` -/
def envN : String → Val := fun s =>
  if s = "a" then .int 1 else if s = "b" then .int 2 else if s = "c" then .int 3 else if s = "d" then .int 9 else if s = "t" then .bool true else .err

/-- The text of a condition with the value that it gets. -/
def Gives (ts : List Tok) (env : String → Val) (v : Val) : Prop := ∃ e, Parses ts e ∧ ∃ p, Reads (Expr.text e) p ∧ eval (py env) p = v

-- `NOT (1 + 2) * 3 = 9` is false and `1 = 1 = .T.` is true
example : Gives [.not, .lp, .name "a", .plus, .name "b", .rp, .star, .name "c", .cmp .eq, .name "d"] envN (.bool true) ∧
    CHolds (py envN) (.not (.cmp .eq (.bin .mul (.sub (.bin .add (.name "a") (.name "b"))) (.name "c")) (.name "d"))) = false :=
  ⟨⟨.cmp .eq (.bin .mul (.not (.sub (.bin .add (.name "a") (.name "b")))) (.name "c")) (.name "d"), ⟨20, rfl⟩,
    .not (.cmp (.bin .add (.name "a") (.bin .mul (.name "b") (.name "c"))) .eq (.name "d")), ⟨20, rfl⟩, by decide +kernel⟩, by decide +kernel⟩
example : Gives [.name "b", .cmp .eq, .name "b", .cmp .eq, .name "t"] envN (.bool false) ∧
    fox (py envN) (.cmp .eq (.cmp .eq (.name "b") (.name "b")) (.name "t")) = .bool true :=
  ⟨⟨.cmp .eq (.cmp .eq (.name "b") (.name "b")) (.name "t"), ⟨20, rfl⟩,
    .chain (.cmp (.name "b") .eq (.name "b")) .eq (.name "t"), ⟨20, rfl⟩, by decide +kernel⟩, by decide +kernel⟩
end

end Props
