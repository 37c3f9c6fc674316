import Verif.Model.Methods
/-!
# What FoxPro does when a method of an object is called

The classes of the object are listed from the most derived one. `Runs` says which jobs end how:
executing lines of a method that stands in a class with the ancestors `parents`, and sending a
message, which is looked up in the classes `search`.
-/
namespace MethodsSpec
open Model.Methods

/-- `f` is what `m` means in the classes `search`; `after` are the ancestors of its class. -/
def Means (search : List Cls) (m : Name) (f : Method) (after : List Cls) : Prop :=
  ∃ before c, search = before ++ c :: after ∧ c.lookup m = some f ∧ ∀ b ∈ before, b.lookup m = none

/-- No class of `search` has a method `m`. -/
def Unknown (search : List Cls) (m : Name) : Prop := ∀ c ∈ search, c.lookup m = none

/-- The parameters get the arguments in order, the others `.F.`. -/
def Binds (params : List Name) (args : List Val) (env : Env) : Prop :=
  args.length ≤ params.length ∧ env = params.zip (args ++ List.replicate (params.length - args.length) .no)

/-- The value of an argument. -/
inductive Value (env : Env) (σ : St) : Arg → Val → Prop where
  | lit (n : Int) : Value env σ (.lit n) (.num n)
  | par {x : Name} {v : Val} : env.lookup x = some v → Value env σ (.par x) v
  | prop {p : Name} {v : Val} : σ.props.lookup p = some v → Value env σ (.prop p) v

inductive Values (env : Env) (σ : St) : List Arg → List Val → Prop where
  | nil : Values env σ [] []
  | cons {a v as vs} : Value env σ a v → Values env σ as vs → Values env σ (a :: as) (v :: vs)

inductive Job where
  /-- Lines of the method `m` of a class with the ancestors `parents`. -/
  | lines (parents : List Cls) (m : Name) (env : Env) (code : Code)
  /-- A message `m` to the object, looked up in `search`. -/
  | message (search : List Cls) (m : Name) (args : List Val)

/-- FoxPro's execution for an object of the classes `chain`. `native` are the methods of the base
class. -/
inductive Runs (native : Name → Bool) (chain : List Cls) : Job → St → Res → Prop where
  | skip {ps m env σ} : Runs native chain (.lines ps m env .skip) σ (.ok σ)
  | say {ps m env σ a rest v r} : Value env σ a v →
      Runs native chain (.lines ps m env rest) { σ with out := σ.out ++ [v] } r →
      Runs native chain (.lines ps m env (.say a rest)) σ r
  | sayErr {ps m env σ a rest} : (¬ ∃ v, Value env σ a v) →
      Runs native chain (.lines ps m env (.say a rest)) σ (.err σ)
  | store {ps m env σ p a rest v r} : Value env σ a v →
      Runs native chain (.lines ps m env rest) { σ with props := (p, v) :: σ.props } r →
      Runs native chain (.lines ps m env (.store p a rest)) σ r
  | storeErr {ps m env σ p a rest} : (¬ ∃ v, Value env σ a v) →
      Runs native chain (.lines ps m env (.store p a rest)) σ (.err σ)
  | call {ps m env σ m' args rest vs σ' r} : Values env σ args vs →
      Runs native chain (.message chain m' vs) σ (.ok σ') →
      Runs native chain (.lines ps m env rest) σ' r →
      Runs native chain (.lines ps m env (.call m' args rest)) σ r
  | callErr {ps m env σ m' args rest vs σ'} : Values env σ args vs →
      Runs native chain (.message chain m' vs) σ (.err σ') →
      Runs native chain (.lines ps m env (.call m' args rest)) σ (.err σ')
  | callArgs {ps m env σ m' args rest} : (¬ ∃ vs, Values env σ args vs) →
      Runs native chain (.lines ps m env (.call m' args rest)) σ (.err σ)
  /-- DODEFAULT is the method of the same name that the ancestors of the class have. -/
  | default {ps m env σ args rest vs f after σ' r} : Values env σ args vs → Means ps m f after →
      Runs native chain (.message ps m vs) σ (.ok σ') →
      Runs native chain (.lines ps m env rest) σ' r →
      Runs native chain (.lines ps m env (.default args rest)) σ r
  | defaultErr {ps m env σ args rest vs f after σ'} : Values env σ args vs → Means ps m f after →
      Runs native chain (.message ps m vs) σ (.err σ') →
      Runs native chain (.lines ps m env (.default args rest)) σ (.err σ')
  /-- Without such a method it does nothing. -/
  | defaultNone {ps m env σ args rest vs r} : Values env σ args vs → Unknown ps m →
      Runs native chain (.lines ps m env rest) σ r →
      Runs native chain (.lines ps m env (.default args rest)) σ r
  | defaultArgs {ps m env σ args rest} : (¬ ∃ vs, Values env σ args vs) →
      Runs native chain (.lines ps m env (.default args rest)) σ (.err σ)
  | dim {ps m env σ x rest r} : Runs native chain (.lines ps m env rest) σ r →
      Runs native chain (.lines ps m env (.dim x rest)) σ r
  | scanEnd {ps m env σ body rest r} : Runs native chain (.lines ps m env rest) σ r →
      Runs native chain (.lines ps m env (.scan 0 body rest)) σ r
  | scanNext {ps m env σ n body rest σ' r} : Runs native chain (.lines ps m env body) σ (.ok σ') →
      Runs native chain (.lines ps m env (.scan n body rest)) σ' r →
      Runs native chain (.lines ps m env (.scan (n + 1) body rest)) σ r
  | scanErr {ps m env σ n body rest σ'} : Runs native chain (.lines ps m env body) σ (.err σ') →
      Runs native chain (.lines ps m env (.scan (n + 1) body rest)) σ (.err σ')
  | tried {ps m env σ to body handler rest σ' r} : Runs native chain (.lines ps m env body) σ (.ok σ') →
      Runs native chain (.lines ps m env rest) σ' r →
      Runs native chain (.lines ps m env (.attempt to body handler rest)) σ r
  | caught {ps m env σ to body handler rest σ' σ'' r} : Runs native chain (.lines ps m env body) σ (.err σ') →
      Runs native chain (.lines ps m env handler) σ' (.ok σ'') →
      Runs native chain (.lines ps m env rest) σ'' r →
      Runs native chain (.lines ps m env (.attempt to body handler rest)) σ r
  | handlerErr {ps m env σ to body handler rest σ' σ''} : Runs native chain (.lines ps m env body) σ (.err σ') →
      Runs native chain (.lines ps m env handler) σ' (.err σ'') →
      Runs native chain (.lines ps m env (.attempt to body handler rest)) σ (.err σ'')
  | found {search m args f after env σ r} : Means search m f after → Binds f.params args env →
      Runs native chain (.lines after m env f.body) σ r →
      Runs native chain (.message search m args) σ r
  /-- Error 1238, "No PARAMETER statement is found". -/
  | noParameters {search m args f after σ} : Means search m f after → f.params = [] → args ≠ [] →
      Runs native chain (.message search m args) σ (.err σ)
  | native {search m args σ} : Unknown search m → native m = true →
      Runs native chain (.message search m args) σ (.ok σ)
  | unknown {search m args σ} : Unknown search m → native m = false →
      Runs native chain (.message search m args) σ (.err σ)

/-- The lines contain SCAN, CATCH TO or an array declaration. -/
def UsesVariable : Code → Prop
  | .skip => False
  | .say _ rest | .store _ _ rest | .call _ _ rest | .default _ rest => UsesVariable rest
  | .dim _ _ | .scan _ _ _ => True
  | .attempt to body handler rest => to = true ∨ UsesVariable body ∨ UsesVariable handler ∨ UsesVariable rest

/-- The lines declare an array called SELF. -/
def DeclaresSelf : Code → Prop
  | .skip => False
  | .say _ rest | .store _ _ rest | .call _ _ rest | .default _ rest => DeclaresSelf rest
  | .dim x rest => x = "self" ∨ DeclaresSelf rest
  | .scan _ body rest => DeclaresSelf body ∨ DeclaresSelf rest
  | .attempt _ body handler rest => DeclaresSelf body ∨ DeclaresSelf handler ∨ DeclaresSelf rest

/-- The lines contain DODEFAULT. -/
def HasDefault : Code → Prop
  | .skip => False
  | .default _ _ => True
  | .say _ rest | .store _ _ rest | .call _ _ rest | .dim _ rest => HasDefault rest
  | .scan _ body rest => HasDefault body ∨ HasDefault rest
  | .attempt _ body handler rest => HasDefault body ∨ HasDefault handler ∨ HasDefault rest

/-- No way through the lines goes past all DODEFAULTs. -/
def MustDefault : Code → Prop
  | .skip => False
  | .default _ _ => True
  | .say _ rest | .store _ _ rest | .call _ _ rest | .dim _ rest => MustDefault rest
  | .scan n body rest => (n ≠ 0 ∧ MustDefault body) ∨ MustDefault rest
  | .attempt _ body handler rest => (MustDefault body ∧ MustDefault handler) ∨ MustDefault rest

/-- The classes whose objects are treated as in FoxPro: methods with parameters have none of SCAN,
CATCH TO and array declarations, DODEFAULT stands only in the most derived class, in methods of
that class, and there is a method that it can run. -/
structure Proper (native : Name → Bool) (chain : List Cls) : Prop where
  plain : ∀ c ∈ chain, ∀ m f, c.lookup m = some f →
    (f.params = [] ∨ ¬ UsesVariable f.body) ∧ ¬ DeclaresSelf f.body
  own : ∀ c ∈ chain.tail, ∀ m f, c.lookup m = some f → ¬ HasDefault f.body
  parent : ∀ c cs, chain = c :: cs → ∀ m f, c.lookup m = some f → HasDefault f.body →
    f.header = [m] ∧ (¬ Unknown cs m ∨ native m = true)

end MethodsSpec
