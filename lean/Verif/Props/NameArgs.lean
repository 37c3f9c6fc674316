import Verif.Model.NameArgs
/-!
# C135: names written in commands

FoxPro: a name in a command stands for itself, with or without quotes; only an expression in
parentheses is evaluated.  (Lines with `&variable` are C136.)
-/
namespace Props
open Model.NameArgs

namespace NameArgsSpec

/-- Names are compared without regard to case. -/
def fold (s : Str) : Str := s.map Char.toLower

/-- The tokens of an expression in the order of the source. -/
def tokens : E → List Str
  | .sub e => "(".toList :: (tokens e ++ [")".toList])
  | .un op e => op :: tokens e
  | .bin op l r => tokens l ++ op :: tokens r
  | .str a s b => [[a], s, [b]]
  | .const t => [t]
  | .atom n ts => n :: ts.flatMap fun
    | .call args => [args]
    | .ident name => [".".toList, name]

/-- The name that FoxPro takes. -/
def foxName (ev : E → Str) : Special → Str
  | .expr (.sub e) _ => ev (.sub e)
  | .expr (.str _ s _) _ => s
  | .expr e _ => (tokens e).flatten
  | .path t => t

/-- An operand of an expression, at any depth. -/
inductive Operand : E → E → Prop
  | refl (e : E) : Operand e e
  | un (op : Str) {x e : E} : Operand x e → Operand x (.un op e)
  | left (op : Str) (r : E) {x l : E} : Operand x l → Operand x (.bin op l r)
  | right (op : Str) (l : E) {x r : E} : Operand x r → Operand x (.bin op l r)

/-- A constant, an expression in parentheses, or a name with arguments or subscripts. -/
inductive Evaluated : E → Prop
  | sub (e : E) : Evaluated (.sub e)
  | str (a : Char) (s : Str) (b : Char) : Evaluated (.str a s b)
  | const (t : Str) : Evaluated (.const t)
  | call (n t : Str) (ts : List Trailer) : Evaluated (.atom n (.call t :: ts))

/-- An unquoted name: not in parentheses, no string constant. -/
def Bare : E → Prop
  | .sub _ => False
  | .str _ _ _ => False
  | _ => True

/-- The operators that may occur in names of files. -/
def operators : List Str := ["+", "-", "!", "#", "==", "<>", "!=", "%", "=", "^", "$"].map String.toList

/-- The operators between the operands may occur in names of files. -/
def PathOps : E → Prop
  | .un op e => op ∈ operators ∧ PathOps e
  | .bin op l r => op ∈ operators ∧ PathOps l ∧ PathOps r
  | _ => True

/-- What is inside all the parentheses. -/
def inside : E → E
  | .sub e => inside e
  | e => e

end NameArgsSpec

open NameArgsSpec

namespace NameArgsAux

theorem exceptions_iff (e : E) : containsExceptions e = true ↔ ∃ x, Operand x e ∧ Evaluated x := by
  induction e with
  | sub e => exact ⟨fun _ => ⟨_, .refl _, .sub e⟩, fun _ => rfl⟩
  | str a s b => exact ⟨fun _ => ⟨_, .refl _, .str a s b⟩, fun _ => rfl⟩
  | const t => exact ⟨fun _ => ⟨_, .refl _, .const t⟩, fun _ => rfl⟩
  | un op e ih =>
    simp only [containsExceptions]
    rw [ih]
    constructor
    · rintro ⟨x, h1, h2⟩; exact ⟨x, .un op h1, h2⟩
    · rintro ⟨x, h1, h2⟩
      cases h1 with
      | refl => cases h2
      | un _ h1 => exact ⟨x, h1, h2⟩
  | bin op l r ihl ihr =>
    simp only [containsExceptions, Bool.or_eq_true]
    rw [ihl, ihr]
    constructor
    · rintro (⟨x, h1, h2⟩ | ⟨x, h1, h2⟩)
      · exact ⟨x, .left op r h1, h2⟩
      · exact ⟨x, .right op l h1, h2⟩
    · rintro ⟨x, h1, h2⟩
      cases h1 with
      | refl => cases h2
      | left _ _ h1 => exact .inl ⟨x, h1, h2⟩
      | right _ _ h1 => exact .inr ⟨x, h1, h2⟩
  | atom n ts =>
    constructor
    · intro h
      cases ts with
      | nil => cases h
      | cons t ts =>
        cases t with
        | call t => exact ⟨_, .refl _, .call n t ts⟩
        | ident m => cases h
    · rintro ⟨x, h1, h2⟩
      cases h1
      cases h2
      rfl

theorem text_eq (e : E) : e.text = (tokens e).flatten := by
  induction e with
  | sub e ih => simp [E.text, tokens, ih]
  | un op e ih => simp [E.text, tokens, ih]
  | bin op l r ihl ihr => simp [E.text, tokens, ihl, ihr]
  | str a s b => simp [E.text, tokens]
  | const t => simp [E.text, tokens]
  | atom n ts =>
    simp only [E.text, tokens, List.flatten_cons]
    congr 1
    induction ts with
    | nil => rfl
    | cons t ts ih =>
      rw [List.flatMap_cons, List.flatMap_cons, List.flatten_append, ih]
      cases t <;> simp [Trailer.text]

theorem fold_fold (s : Str) : fold (fold s) = fold s := by
  have key : ∀ c : Char, c.toLower.toLower = c.toLower := by
    intro c
    by_cases h : c.toNat < 128
    · have table : ∀ n : Fin 128, (Char.ofNat n).toLower.toLower = (Char.ofNat n).toLower := by decide
      have := table ⟨c.toNat, h⟩
      simpa using this
    · have h1 : c.toLower = c := by
        unfold Char.toLower
        rw [dif_neg]
        intro h2
        have h3 : c.val ≤ 'Z'.val := h2.2
        have : c.toNat ≤ 90 := h3
        omega
      rw [h1, h1]
  unfold fold
  rw [List.map_map]
  exact List.map_congr_left fun c _ => key c

theorem value_path (ev : E → Str) (e : E) (h : containsExceptions e = false) :
    value ev (.expr e false) = lower e.text := by
  unfold value visit clean; simp [h]

theorem value_expr (ev : E → Str) (e : E) (b : Bool) (h : containsExceptions e = true) (hb : Bare e) :
    value ev (.expr e b) = ev e := by
  unfold value visit clean
  simp only [h, Bool.or_true, Bool.not_true, Bool.false_eq_true, if_false]
  cases e with
  | sub e => exact hb.elim
  | str a s c => exact hb.elim
  | un op e => rfl
  | bin op l r => rfl
  | const t => rfl
  | atom n ts => rfl

theorem visit_code : ∀ e : E, (∀ a s b, inside e ≠ .str a s b) → visitExpr e = .code e := by
  intro e
  induction e with
  | sub e ih => intro h; rw [visitExpr, ih h]
  | str a s b => intro h; exact absurd rfl (h a s b)
  | un op e => intro _; rfl
  | bin op l r => intro _; rfl
  | const t => intro _; rfl
  | atom n ts => intro _; rfl

theorem visit_str : ∀ (e : E) (a : Char) (s : Str) (b : Char), inside e = .str a s b → visitExpr e = .literal (lower s) := by
  intro e
  induction e with
  | sub e ih => intro a s b h; rw [visitExpr, ih a s b h]
  | str a s b => intro a' s' b' h; cases h; rfl
  | un op e => intro a s b h; cases h
  | bin op l r => intro a s b h; cases h
  | const t => intro a s b h; cases h
  | atom n ts => intro a s b h; cases h

end NameArgsAux

open NameArgsAux

namespace NameArgsDemo
def s (x : String) : Str := x.toList
/-- `Data.dbf` -/
def data : E := .atom (s "Data") [.ident (s "dbf")]
/-- `data-2` -/
def data2 : E := .bin (s "-") (.atom (s "data") []) (.const (s "2"))
end NameArgsDemo

/-- **C135**: an unquoted name that could be an expression stands for itself, for all values of variables, exactly if
none of its operands is a constant, in parentheses or followed by parentheses or brackets.  (Names with
other operators than those of `PathOps` are outside the model.) -/
theorem C135_bare_iff (e : E) (bare : Bare e) (_ops : PathOps e) :
    (∀ ev, fold (value ev (.expr e false)) = fold (foxName ev (.expr e false))) ↔
      ¬∃ x, Operand x e ∧ Evaluated x := by
  have hfox : ∀ ev, foxName ev (.expr e false) = e.text := by
    intro ev
    rw [text_eq]
    cases e with
    | sub e => exact bare.elim
    | str a s c => exact bare.elim
    | un op e => rfl
    | bin op l r => rfl
    | const t => rfl
    | atom n ts => rfl
  rw [← exceptions_iff]
  constructor
  · intro h hx
    have := h (fun _ => '!' :: e.text)
    rw [value_expr _ _ _ hx bare, hfox] at this
    have := congrArg List.length this
    simp [fold] at this
  · intro h ev
    rw [value_path _ _ (by simpa using h), hfox]
    exact fold_fold _

example : Bare NameArgsDemo.data2 ∧ PathOps NameArgsDemo.data2 :=
  ⟨trivial, ⟨by decide +kernel, trivial, trivial⟩⟩

example : value (fun _ => []) (.expr NameArgsDemo.data false) = NameArgsDemo.s "data.dbf" ∧
    visit (.expr NameArgsDemo.data2 false) = .code NameArgsDemo.data2 := by decide +kernel

/-- **C135 (partial)**: a name in quotes stands for itself, also in parentheses, an expression in parentheses for
its value, and every text that is no expression for itself.  Missing: unquoted names that could be expressions
(`C135_bare_iff`). -/
theorem C135_names_partial (ev : E → Str) :
    (∀ a s b blanks, fold (value ev (.expr (.str a s b) blanks)) = fold (foxName ev (.expr (.str a s b) blanks))) ∧
    (∀ e blanks, (∀ a s b, inside e = .str a s b → ev (.sub e) = s) →
      fold (value ev (.expr (.sub e) blanks)) = fold (foxName ev (.expr (.sub e) blanks))) ∧
    (∀ e blanks, (∀ a s b, inside e ≠ .str a s b) →
      value ev (.expr (.sub e) blanks) = foxName ev (.expr (.sub e) blanks)) ∧
    (∀ t, fold (value ev (.path t)) = fold (foxName ev (.path t))) := by
  have hsub : ∀ e blanks, visit (.expr (.sub e) blanks) = visitExpr (.sub e) := by
    intro e blanks
    unfold visit clean
    simp [containsExceptions]
  have hcode : ∀ e, (∀ a s b, inside e ≠ .str a s b) →
      value ev (.expr (.sub e) false) = ev (.sub e) := by
    intro e he
    unfold value
    rw [hsub, visitExpr, visit_code e he]
  refine ⟨?_, ?_, ?_, ?_⟩
  · intro a s b blanks
    have : value ev (.expr (.str a s b) blanks) = lower s := by
      unfold value visit clean; simp [containsExceptions, visitExpr]
    rw [this]
    exact fold_fold s
  · intro e blanks he
    by_cases hq : ∃ a s b, inside e = .str a s b
    · obtain ⟨a, s, b, hq⟩ := hq
      change _ = fold (ev (.sub e))
      rw [he a s b hq]
      unfold value
      rw [hsub, visitExpr, visit_str e a s b hq]
      exact fold_fold s
    · have hn : ∀ a s b, inside e ≠ .str a s b := fun a s b h => hq ⟨a, s, b, h⟩
      have := hcode e hn
      unfold value at this ⊢
      rw [hsub] at this ⊢
      rw [this]; rfl
  · intro e blanks he
    have := hcode e he
    unfold value at this ⊢
    rw [hsub] at this ⊢
    rw [this]; rfl
  · intro t
    exact fold_fold t

example : value (fun _ => NameArgsDemo.s "x.dbf") (.expr (.sub (.atom (NameArgsDemo.s "cFile") [])) false) = NameArgsDemo.s "x.dbf" ∧
    value (fun _ => []) (.expr (.sub (.str '"' (NameArgsDemo.s "My File") '"')) true) = NameArgsDemo.s "my file" ∧
    value (fun _ => []) (.path (NameArgsDemo.s "C:\\Dir\\a.txt")) = NameArgsDemo.s "c:\\dir\\a.txt" := by
  decide +kernel

end Props
