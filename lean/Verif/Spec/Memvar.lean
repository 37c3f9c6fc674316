import Verif.Model.Memvar
/-!
# What FoxPro users expect of memory variables

`visible` is the FoxPro rule: the running procedure's local of that name, else
the innermost procedure level that has a private (the outermost level holding
the publics).  It does not use the model's `getScope`.
-/
namespace Spec
open Model Py

/-- The value a name denotes, if any. -/
def visible (m : Mem) (k : Name) : Option Val :=
  match m.loc.head?.bind (fun f => f.get k) with
  | some v => some v
  | none => m.pub.findSome? (fun f => f.get k)

/-- The value a name denotes when the running procedure has no such local. -/
def visiblePub (m : Mem) (k : Name) : Option Val := m.pub.findSome? (fun f => f.get k)

/-- The value of an argument where it is written. -/
def argument (σ : State) : Expr → Option Val
  | .const v => some v
  | .var k => visible σ.mem k
  | .pcount => σ.pcounts.head?.map fun n => .num n
  | .parameters => some (.num σ.parameters)

/-- Programs without TRY. -/
def NoTry : Stmt → Prop
  | .tryCatch _ _ => False
  | .seq a b => NoTry a ∧ NoTry b
  | .ite _ a b => NoTry a ∧ NoTry b
  | .loop _ a => NoTry a
  | _ => True

/-- No RELEASE k and no PUBLIC k anywhere in the statement. -/
def KeepsName (k : Name) : Stmt → Prop
  | .del k' => k' ≠ k
  | .declare .pub names kw => k ∉ names ∧ k ∉ kw.map Prod.fst
  | .seq a b => KeepsName k a ∧ KeepsName k b
  | .ite _ a b => KeepsName k a ∧ KeepsName k b
  | .loop _ a => KeepsName k a
  | .tryCatch a b => KeepsName k a ∧ KeepsName k b
  | _ => True

/-- No RELEASE ALL in the statement itself (called procedures may use it). -/
def NoReleaseAll : Stmt → Prop
  | .releaseAll => False
  | .seq a b => NoReleaseAll a ∧ NoReleaseAll b
  | .ite _ a b => NoReleaseAll a ∧ NoReleaseAll b
  | .loop _ a => NoReleaseAll a
  | .tryCatch a b => NoReleaseAll a ∧ NoReleaseAll b
  | _ => True

end Spec
