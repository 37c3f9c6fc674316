import Verif.Spec.Methods
/-!
# C123, C124: methods receive their object and arguments; DODEFAULT runs the parent's method
-/
namespace Props
open Model.Methods MethodsSpec

namespace MethodsAux

theorem fold_extends (xs l : List Name) :
    ∃ t, xs.foldl (fun l x => if x ∈ l then l else l ++ [x]) l = l ++ t := by
  induction xs generalizing l with
  | nil => exact ⟨[], by simp⟩
  | cons x xs ih =>
    simp only [List.foldl_cons]
    split
    · exact ih l
    · obtain ⟨t, ht⟩ := ih (l ++ [x])
      exact ⟨x :: t, by rw [ht]; simp⟩

theorem locals_nil (h : List Name) (c : Code) : localsOf (convert h c) = [] ↔ ¬ UsesVariable c := by
  induction c with
  | skip => simp [convert, localsOf, UsesVariable]
  | say _ _ ih => simpa [convert, localsOf, UsesVariable] using ih
  | store _ _ _ ih => simpa [convert, localsOf, UsesVariable] using ih
  | call _ _ _ ih => simpa [convert, localsOf, UsesVariable] using ih
  | default _ _ ih => simpa [convert, localsOf, UsesVariable] using ih
  | dim _ _ _ => simp [convert, localsOf, UsesVariable]
  | scan _ _ _ _ _ => simp [convert, localsOf, UsesVariable]
  | attempt to b c d ib ic id =>
    cases to <;> simp [convert, localsOf, UsesVariable, ib, ic, id, and_assoc]

theorem locals_self (h : List Name) (c : Code) : "self" ∈ localsOf (convert h c) ↔ DeclaresSelf c := by
  induction c with
  | skip => simp [convert, localsOf, DeclaresSelf]
  | say _ _ ih => simpa [convert, localsOf, DeclaresSelf] using ih
  | store _ _ _ ih => simpa [convert, localsOf, DeclaresSelf] using ih
  | call _ _ _ ih => simpa [convert, localsOf, DeclaresSelf] using ih
  | default _ _ ih => simpa [convert, localsOf, DeclaresSelf] using ih
  | dim x _ ih => simp [convert, localsOf, DeclaresSelf, ih, eq_comm]
  | scan _ _ _ ib ir => simp [convert, localsOf, DeclaresSelf, ib, ir]
  | attempt to b c d ib ic id => cases to <;> simp [convert, localsOf, DeclaresSelf, ib, ic, id, or_assoc]

theorem coVarnames_iff (h : List Name) (c : Code) (hs : ¬ DeclaresSelf c) :
    coVarnames (convert h c) = ["self"] ↔ ¬ UsesVariable c := by
  rw [← locals_nil h c]
  have hself : "self" ∉ localsOf (convert h c) := fun hm => hs ((locals_self h c).mp hm)
  unfold coVarnames
  cases hl : localsOf (convert h c) with
  | nil => simp
  | cons x xs =>
    rw [hl] at hself
    have hx : x ≠ "self" := fun e => hself (by simp [e])
    simp only [List.foldl_cons, List.mem_singleton, if_neg hx]
    obtain ⟨t, ht⟩ := fold_extends xs (["self"] ++ [x])
    rw [ht]
    simp

theorem bind_nil (params : List Name) : bindParams params [] = params.zip (List.replicate params.length .no) := by
  induction params with
  | nil => rfl
  | cons x xs ih => simp [bindParams, ih, List.replicate_succ]

theorem bind_eq (params : List Name) (args : List Val) :
    bindParams params args = params.zip (args ++ List.replicate (params.length - args.length) .no) := by
  induction params generalizing args with
  | nil => rfl
  | cons x xs ih =>
    cases args with
    | nil => exact bind_nil _
    | cons v vs => simp [bindParams, ih]

theorem value_iff (env : Env) (σ : St) (a : Arg) (v : Val) : eval env σ a = some v ↔ Value env σ a v := by
  constructor
  · intro h
    cases a with
    | lit n => simp only [eval, Option.some.injEq] at h; subst h; exact .lit n
    | par x => exact .par h
    | prop p => exact .prop h
  · rintro (_ | h | h)
    · rfl
    · exact h
    · exact h

theorem values_iff (env : Env) (σ : St) (as : List Arg) (vs : List Val) : evalAll env σ as = some vs ↔ Values env σ as vs := by
  induction as generalizing vs with
  | nil =>
    constructor
    · intro h
      simp [evalAll] at h
      subst h
      exact .nil
    · rintro ⟨⟩
      rfl
  | cons a as ih =>
    unfold evalAll at ih ⊢
    rw [List.mapM_cons]
    constructor
    · intro h
      cases ha : eval env σ a with
      | none => simp [ha] at h
      | some v =>
        cases has : as.mapM (eval env σ) with
        | none => simp [ha, has] at h
        | some ws =>
          simp [ha, has] at h
          subst h
          exact .cons ((value_iff ..).mp ha) ((ih ws).mp has)
    · rintro ⟨⟩
      rename_i v ws hv hws
      rw [(value_iff ..).mpr hv, (ih ws).mpr hws]
      rfl

theorem find_none (search : List Cls) (m : Name) : find search m = none ↔ Unknown search m := by
  simp [find, Unknown, List.findSome?_eq_none_iff]

theorem find_means {search : List Cls} {m : Name} {f : Method} {after : List Cls} (h : Means search m f after) :
    find search m = some f := by
  obtain ⟨before, c, rfl, hc, hb⟩ := h
  induction before with
  | nil => simp [find, hc]
  | cons b bs ih =>
    have := ih fun x hx => hb x (List.mem_cons_of_mem _ hx)
    simp only [find] at this ⊢
    rw [List.cons_append, List.findSome?_cons, hb b (by simp)]
    exact this

theorem means_find {search : List Cls} {m : Name} {f : Method} (h : find search m = some f) :
    ∃ after, Means search m f after := by
  induction search with
  | nil => simp [find] at h
  | cons c cs ih =>
    simp only [find, List.findSome?_cons] at h ih
    cases hc : c.lookup m with
    | some g =>
      rw [hc] at h
      cases h
      exact ⟨cs, [], c, rfl, hc, by simp⟩
    | none =>
      rw [hc] at h
      obtain ⟨after, before, d, rfl, hd, hb⟩ := ih h
      refine ⟨after, c :: before, d, rfl, hd, ?_⟩
      intro b hm
      rcases List.mem_cons.mp hm with rfl | hm
      · exact hc
      · exact hb b hm

end MethodsAux

namespace MethodsDemo

/-- `PROCEDURE note(n, text)` with a SCAN over two records. -/
def noteMethod : Method := ⟨["note"], ["n", "text"], .scan 2 (.say (.par "n") .skip) .skip⟩

/-- ```
DEFINE CLASS subobj AS custom
   PROCEDURE init(x)
      DODEFAULT()
      THIS.x = x
```
with `DEFINE CLASS subobj2 AS subobj`, testbed/test_conversion.py:403-417. -/
def subobj : Cls := [("init", ⟨["init"], ["x"], .default [] (.store "x" (.par "x") .skip)⟩)]

/-- A class with a method that shows its parameter, and one that stores it. -/
def counter : Cls :=
  [("add", ⟨["add"], ["n", "m"], .say (.par "n") (.say (.par "m") (.call "keep" [.par "n"] .skip))⟩),
   ("keep", ⟨["keep"], ["n"], .store "total" (.par "n") .skip⟩)]

/-- `PROCEDURE add(n)`, `DODEFAULT(n)`, `? THIS.total` and a method that stores and shows. -/
def special : Cls :=
  [("add", ⟨["add"], ["n"], .default [.par "n"] (.say (.prop "total") .skip)⟩),
   ("keep", ⟨["keep"], ["n"], .attempt false (.call "nothing" [] .skip) (.say (.lit 0) .skip) (.store "total" (.lit 9) .skip)⟩)]

theorem lookup_special {m : Name} {f : Method} (h : List.lookup m special = some f) :
    (m = "add" ∧ f = ⟨["add"], ["n"], .default [.par "n"] (.say (.prop "total") .skip)⟩) ∨
    (m = "keep" ∧ f = ⟨["keep"], ["n"], .attempt false (.call "nothing" [] .skip) (.say (.lit 0) .skip) (.store "total" (.lit 9) .skip)⟩) := by
  simp only [special, List.lookup_cons] at h
  split at h
  · rename_i e
    exact Or.inl ⟨by simpa using e, by simpa using h.symm⟩
  · split at h
    · rename_i e
      exact Or.inr ⟨by simpa using e, by simpa using h.symm⟩
    · simp at h

theorem lookup_counter {m : Name} {f : Method} (h : List.lookup m counter = some f) :
    (m = "add" ∧ f = ⟨["add"], ["n", "m"], .say (.par "n") (.say (.par "m") (.call "keep" [.par "n"] .skip))⟩) ∨
    (m = "keep" ∧ f = ⟨["keep"], ["n"], .store "total" (.par "n") .skip⟩) := by
  simp only [counter, List.lookup_cons] at h
  split at h
  · rename_i e
    exact Or.inl ⟨by simpa using e, by simpa using h.symm⟩
  · split at h
    · rename_i e
      exact Or.inr ⟨by simpa using e, by simpa using h.symm⟩
    · simp at h

theorem proper : Proper (fun m => m == "init") [special, counter] where
  plain := by
    intro c hc m f hf
    simp only [List.mem_cons, List.not_mem_nil, or_false] at hc
    rcases hc with rfl | rfl
    · rcases lookup_special hf with ⟨rfl, rfl⟩ | ⟨rfl, rfl⟩ <;> simp [UsesVariable, DeclaresSelf]
    · rcases lookup_counter hf with ⟨rfl, rfl⟩ | ⟨rfl, rfl⟩ <;> simp [UsesVariable, DeclaresSelf]
  own := by
    intro c hc m f hf
    simp only [List.tail_cons, List.mem_cons, List.not_mem_nil, or_false] at hc
    subst hc
    rcases lookup_counter hf with ⟨rfl, rfl⟩ | ⟨rfl, rfl⟩ <;> simp [HasDefault]
  parent := by
    intro c cs h m f hf hd
    simp only [List.cons.injEq] at h
    obtain ⟨rfl, rfl⟩ := h
    rcases lookup_special hf with ⟨rfl, rfl⟩ | ⟨rfl, rfl⟩
    · refine ⟨rfl, Or.inl fun hu => ?_⟩
      have := hu counter (by simp)
      simp [counter] at this
    · simp [HasDefault] at hd

end MethodsDemo

open MethodsAux

/-- Calling a method with no more arguments than it has parameters hands over the object and binds
the parameters as FoxPro does exactly when the method has no parameters or has neither SCAN, CATCH
TO nor an array declaration. -/
theorem C123_call_iff (f : Method) (hs : ¬ DeclaresSelf f.body) (args : List Val) (env : Env)
    (hb : Binds f.params args env) :
    scoper (coVarnames (convert f.header f.body)) f.params (.this :: args) = some ([.this], env) ↔
      f.params = [] ∨ ¬ UsesVariable f.body := by
  obtain ⟨hlen, rfl⟩ := hb
  rw [← coVarnames_iff f.header f.body hs, ← bind_eq]
  unfold scoper
  by_cases hp : f.params = []
  · have ha : args = [] := List.eq_nil_of_length_eq_zero (by rw [hp] at hlen; simpa using hlen)
    simp [hp, ha, bindParams]
  · by_cases hc : coVarnames (convert f.header f.body) = ["self"] <;> simp [hp, hc]

/-- A method with parameters and SCAN: the wrapper calls it without the object. -/
example : Binds MethodsDemo.noteMethod.params [.num 7] [("n", .num 7), ("text", .no)] ∧
    ¬ DeclaresSelf MethodsDemo.noteMethod.body ∧ UsesVariable MethodsDemo.noteMethod.body ∧
    scoper (coVarnames (convert ["note"] MethodsDemo.noteMethod.body)) MethodsDemo.noteMethod.params [.this, .num 7] =
      some ([], [("n", .this), ("text", .num 7)]) := by
  refine ⟨⟨by decide, by decide⟩, ?_, trivial, by decide⟩
  simp [MethodsDemo.noteMethod, DeclaresSelf]

/-- A method with parameters and with SCAN, CATCH TO or an array declaration fails for every
object, whatever the arguments and the rest of its lines are. -/
theorem C123_call_fails (native : Name → Bool) (chain search : List Cls) (m : Name) (f : Method) (after : List Cls)
    (hf : Means search m f after) (hp : f.params ≠ []) (hu : UsesVariable f.body) (hs : ¬ DeclaresSelf f.body)
    (fuel : Nat) (args : List Val) (σ : St) :
    invoke native chain (fuel + 1) search m args σ = some (.err σ) := by
  have hc : ¬ coVarnames (convert f.header f.body) = ["self"] := fun h =>
    (coVarnames_iff f.header f.body hs).mp h hu
  simp [invoke, find_means hf, scoper, hp, hc]

/-- FoxPro shows the number twice; the generated method fails. -/
example : Runs (fun _ => false) [[("note", MethodsDemo.noteMethod)]] (.message [[("note", MethodsDemo.noteMethod)]] "note" [.num 7])
      ⟨[], []⟩ (.ok ⟨[], [.num 7, .num 7]⟩) ∧
    invoke (fun _ => false) [[("note", MethodsDemo.noteMethod)]] 5 [[("note", MethodsDemo.noteMethod)]] "note" [.num 7] ⟨[], []⟩ =
      some (.err ⟨[], []⟩) := by
  have hm : Means [[("note", MethodsDemo.noteMethod)]] "note" MethodsDemo.noteMethod [] :=
    ⟨[], _, rfl, rfl, by simp⟩
  refine ⟨.found hm ⟨by decide, rfl⟩ ?_, ?_⟩
  · exact .scanNext (.say (.par rfl) .skip) (.scanNext (.say (.par rfl) .skip) (.scanEnd .skip))
  · exact C123_call_fails _ _ _ _ _ _ hm (by decide) trivial (by simp [MethodsDemo.noteMethod, DeclaresSelf]) 4 _ _

namespace MethodsAux

/-- What has to be known of a job. -/
def OkJob (native : Name → Bool) (chain : List Cls) (hdr : List Name) : Job → Prop
  | .lines ps m _ code => HasDefault code → hdr = [m] ∧ ps = chain.tail ∧ (¬ Unknown chain.tail m ∨ native m = true)
  | .message search _ _ => search = chain ∨ search = chain.tail

/-- The generated code does the job. -/
def Does (native : Name → Bool) (chain : List Cls) (n : Nat) (hdr : List Name) (σ : St) (r : Res) : Job → Prop
  | .lines _ _ env code =>
    exec (invoke native chain n chain) (invoke native chain n chain.tail) env (convert hdr code) σ = some r
  | .message search m args => invoke native chain n search m args σ = some r

theorem exec_scan {native chain n env hdr k body rest σ} :
    exec (invoke native chain n chain) (invoke native chain n chain.tail) env (convert hdr (.scan k body rest)) σ =
      andThen (rounds (exec (invoke native chain n chain) (invoke native chain n chain.tail) env (convert hdr body)) k σ)
        (exec (invoke native chain n chain) (invoke native chain n chain.tail) env (convert hdr rest)) := rfl

theorem does {native : Name → Bool} {chain : List Cls} (H : Proper native chain) {j : Job} {σ : St} {r : Res}
    (h : Runs native chain j σ r) : ∀ hdr, OkJob native chain hdr j → ∃ N, ∀ n, N ≤ n → Does native chain n hdr σ r j := by
  induction h with
  | skip => exact fun _ _ => ⟨0, fun _ _ => rfl⟩
  | @say ps m env σ a rest v r hv _ ih =>
    intro hdr hok
    obtain ⟨N, hN⟩ := ih hdr hok
    exact ⟨N, fun n hn => by simpa [Does, convert, exec, (value_iff ..).mpr hv] using hN n hn⟩
  | @sayErr ps m env σ a rest hv =>
    intro hdr _
    have he : eval env σ a = none := by
      cases he : eval env σ a with
      | none => rfl
      | some v => exact absurd ⟨v, (value_iff ..).mp he⟩ hv
    exact ⟨0, fun n _ => by simp [Does, convert, exec, he]⟩
  | @store ps m env σ p a rest v r hv _ ih =>
    intro hdr hok
    obtain ⟨N, hN⟩ := ih hdr hok
    exact ⟨N, fun n hn => by simpa [Does, convert, exec, (value_iff ..).mpr hv] using hN n hn⟩
  | @storeErr ps m env σ p a rest hv =>
    intro hdr _
    have he : eval env σ a = none := by
      cases he : eval env σ a with
      | none => rfl
      | some v => exact absurd ⟨v, (value_iff ..).mp he⟩ hv
    exact ⟨0, fun n _ => by simp [Does, convert, exec, he]⟩
  | @call ps m env σ m' args rest vs σ' r hv _ _ ih1 ih2 =>
    intro hdr hok
    obtain ⟨N1, h1⟩ := ih1 [] (Or.inl rfl)
    obtain ⟨N2, h2⟩ := ih2 hdr hok
    refine ⟨max N1 N2, fun n hn => ?_⟩
    have e1 := h1 n (by omega)
    have e2 := h2 n (by omega)
    simp only [Does] at e1 e2
    simp [Does, convert, exec, (values_iff ..).mpr hv, e1, andThen, e2]
  | @callErr ps m env σ m' args rest vs σ' hv _ ih1 =>
    intro hdr hok
    obtain ⟨N1, h1⟩ := ih1 [] (Or.inl rfl)
    refine ⟨N1, fun n hn => ?_⟩
    have e1 := h1 n hn
    simp only [Does] at e1
    simp [Does, convert, exec, (values_iff ..).mpr hv, e1, andThen]
  | @callArgs ps m env σ m' args rest hv =>
    intro hdr _
    have he : evalAll env σ args = none := by
      cases he : evalAll env σ args with
      | none => rfl
      | some v => exact absurd ⟨v, (values_iff ..).mp he⟩ hv
    exact ⟨0, fun n _ => by simp [Does, convert, exec, he]⟩
  | @default ps m env σ args rest vs f after σ' r hv _ _ _ ih1 ih2 =>
    intro hdr hok
    obtain ⟨rfl, hps, hpar⟩ := hok trivial
    subst hps
    obtain ⟨N1, h1⟩ := ih1 [] (Or.inr rfl)
    obtain ⟨N2, h2⟩ := ih2 [m] (fun _ => ⟨rfl, rfl, hpar⟩)
    refine ⟨max N1 N2, fun n hn => ?_⟩
    have e1 := h1 n (by omega)
    have e2 := h2 n (by omega)
    simp only [Does] at e1 e2
    simp [Does, convert, exec, (values_iff ..).mpr hv, e1, andThen, e2]
  | @defaultErr ps m env σ args rest vs f after σ' hv _ _ ih1 =>
    intro hdr hok
    obtain ⟨rfl, hps, hpar⟩ := hok trivial
    subst hps
    obtain ⟨N1, h1⟩ := ih1 [] (Or.inr rfl)
    refine ⟨N1, fun n hn => ?_⟩
    have e1 := h1 n (by omega)
    simp only [Does] at e1
    simp [Does, convert, exec, (values_iff ..).mpr hv, e1, andThen]
  | @defaultNone ps m env σ args rest vs r hv hun _ ih =>
    intro hdr hok
    obtain ⟨rfl, hps, hpar⟩ := hok trivial
    subst hps
    have hnat : native m = true := hpar.resolve_left (fun h => h hun)
    obtain ⟨N, hN⟩ := ih [m] (fun _ => ⟨rfl, rfl, hpar⟩)
    refine ⟨N + 1, fun n hn => ?_⟩
    have e := hN n (by omega)
    simp only [Does] at e
    obtain ⟨k, rfl⟩ : ∃ k, n = k + 1 := ⟨n - 1, by omega⟩
    have ec : invoke native chain (k + 1) chain.tail m vs σ = some (.ok σ) := by
      simp [invoke, (find_none ..).mpr hun, hnat]
    simp only [Does, convert, exec, (values_iff ..).mpr hv, ec, andThen]
    exact e
  | @defaultArgs ps m env σ args rest hv =>
    intro hdr hok
    obtain ⟨rfl, _, _⟩ := hok trivial
    have he : evalAll env σ args = none := by
      cases he : evalAll env σ args with
      | none => rfl
      | some v => exact absurd ⟨v, (values_iff ..).mp he⟩ hv
    exact ⟨0, fun n _ => by simp [Does, convert, exec, he]⟩
  | dim _ ih =>
    intro hdr hok
    obtain ⟨N, hN⟩ := ih hdr hok
    exact ⟨N, fun n hn => by simpa [Does, convert, exec] using hN n hn⟩
  | @scanEnd ps m env σ body rest r _ ih =>
    intro hdr hok
    obtain ⟨N, hN⟩ := ih hdr (fun h => hok (Or.inr h))
    refine ⟨N, fun n hn => ?_⟩
    have e := hN n hn
    simp only [Does] at e ⊢
    rw [exec_scan]
    simpa [rounds, andThen] using e
  | @scanNext ps m env σ k body rest σ' r _ _ ih1 ih2 =>
    intro hdr hok
    obtain ⟨N1, h1⟩ := ih1 hdr (fun h => hok (Or.inl h))
    obtain ⟨N2, h2⟩ := ih2 hdr hok
    refine ⟨max N1 N2, fun n hn => ?_⟩
    have e1 := h1 n (by omega)
    have e2 := h2 n (by omega)
    simp only [Does] at e1 e2 ⊢
    rw [exec_scan] at e2 ⊢
    simpa [rounds, e1] using e2
  | @scanErr ps m env σ k body rest σ' _ ih1 =>
    intro hdr hok
    obtain ⟨N1, h1⟩ := ih1 hdr (fun h => hok (Or.inl h))
    refine ⟨N1, fun n hn => ?_⟩
    have e1 := h1 n hn
    simp only [Does] at e1 ⊢
    rw [exec_scan]
    simp [rounds, e1, andThen]
  | @tried ps m env σ to body handler rest σ' r _ _ ih1 ih2 =>
    intro hdr hok
    obtain ⟨N1, h1⟩ := ih1 hdr (fun h => hok (Or.inl h))
    obtain ⟨N2, h2⟩ := ih2 hdr (fun h => hok (Or.inr (Or.inr h)))
    refine ⟨max N1 N2, fun n hn => ?_⟩
    have e1 := h1 n (by omega)
    have e2 := h2 n (by omega)
    simp only [Does] at e1 e2 ⊢
    simp [convert, exec, e1, andThen, e2]
  | @caught ps m env σ to body handler rest σ' σ'' r _ _ _ ih1 ih2 ih3 =>
    intro hdr hok
    obtain ⟨N1, h1⟩ := ih1 hdr (fun h => hok (Or.inl h))
    obtain ⟨N2, h2⟩ := ih2 hdr (fun h => hok (Or.inr (Or.inl h)))
    obtain ⟨N3, h3⟩ := ih3 hdr (fun h => hok (Or.inr (Or.inr h)))
    refine ⟨max N1 (max N2 N3), fun n hn => ?_⟩
    have e1 := h1 n (by omega)
    have e2 := h2 n (by omega)
    have e3 := h3 n (by omega)
    simp only [Does] at e1 e2 e3 ⊢
    simp [convert, exec, e1, andThen, e2, e3]
  | @handlerErr ps m env σ to body handler rest σ' σ'' _ _ ih1 ih2 =>
    intro hdr hok
    obtain ⟨N1, h1⟩ := ih1 hdr (fun h => hok (Or.inl h))
    obtain ⟨N2, h2⟩ := ih2 hdr (fun h => hok (Or.inr (Or.inl h)))
    refine ⟨max N1 N2, fun n hn => ?_⟩
    have e1 := h1 n (by omega)
    have e2 := h2 n (by omega)
    simp only [Does] at e1 e2 ⊢
    simp [convert, exec, e1, andThen, e2]
  | @found search m args f after env σ r hm hb _ ih =>
    intro hdr hok
    have hfind := find_means hm
    obtain ⟨before, c, hsearch, hc, hbef⟩ := hm
    have hmem : c ∈ chain := by
      rcases hok with h | h
      · rw [← h, hsearch]; simp
      · exact List.mem_of_mem_tail (by rw [← h, hsearch]; simp)
    have hpl := H.plain c hmem m f hc
    have hcall := (C123_call_iff f hpl.2 args env hb).mpr hpl.1
    obtain ⟨N, hN⟩ := ih f.header (by
      intro hd
      have hnt : c ∉ chain.tail := fun ht => H.own c ht m f hc hd
      have hs : search = chain := hok.resolve_right (fun h => hnt (by rw [← h, hsearch]; simp))
      have hb0 : before = [] := by
        cases before with
        | nil => rfl
        | cons b bs => exact absurd (by rw [← hs, hsearch]; simp) hnt
      rw [hs, hb0, List.nil_append] at hsearch
      obtain ⟨h1, h2⟩ := H.parent c after hsearch m f hc hd
      rw [hsearch]
      exact ⟨h1, rfl, h2⟩)
    refine ⟨N + 1, fun n hn => ?_⟩
    obtain ⟨k, rfl⟩ : ∃ k, n = k + 1 := ⟨n - 1, by omega⟩
    have e := hN k (by omega)
    simp only [Does] at e ⊢
    simp only [invoke, hfind, hcall]
    exact e
  | @noParameters search m args f after σ hm hp ha =>
    intro hdr hok
    refine ⟨1, fun n hn => ?_⟩
    obtain ⟨k, rfl⟩ : ∃ k, n = k + 1 := ⟨n - 1, by omega⟩
    simp only [Does, invoke, find_means hm, scoper, hp]
    cases args with
    | nil => exact absurd rfl ha
    | cons a as => simp
  | @native search m args σ hu hn' =>
    intro hdr hok
    refine ⟨1, fun n hn => ?_⟩
    obtain ⟨k, rfl⟩ : ∃ k, n = k + 1 := ⟨n - 1, by omega⟩
    simp [Does, invoke, (find_none ..).mpr hu, hn']
  | @unknown search m args σ hu hn' =>
    intro hdr hok
    refine ⟨1, fun n hn => ?_⟩
    obtain ⟨k, rfl⟩ : ∃ k, n = k + 1 := ⟨n - 1, by omega⟩
    simp [Does, invoke, (find_none ..).mpr hu, hn']

theorem rounds_ok {f : St → Option Res} : ∀ {n : Nat} {σ τ : St}, n ≠ 0 → rounds f n σ = some (.ok τ) →
    ∃ σ' τ', f σ' = some (.ok τ')
  | 0, _, _, h, _ => absurd rfl h
  | n + 1, σ, τ, _, h => by
    simp only [rounds] at h
    split at h
    · exact ⟨_, _, ‹_›⟩
    · exact ⟨_, _, h⟩

theorem andThen_ok {r : Option Res} {f : St → Option Res} {τ : St} (h : andThen r f = some (.ok τ)) :
    ∃ σ', r = some (.ok σ') ∧ f σ' = some (.ok τ) := by
  unfold andThen at h
  split at h
  · exact ⟨_, rfl, h⟩
  · rename_i hne
    exact absurd h (hne τ)

/-- Lines that cannot go past DODEFAULT do not end normally when it does not. -/
theorem must_stuck {own parent : Name → List Val → St → Option Res} {hdr : List Name}
    (hstuck : ∀ m vs σ τ, hdr = [m] → parent m vs σ ≠ some (.ok τ)) (env : Env) (c : Code) (hm : MustDefault c) :
    ∀ σ τ, exec own parent env (convert hdr c) σ ≠ some (.ok τ) := by
  induction c with
  | skip => exact hm.elim
  | say a rest ih =>
    intro σ τ h
    simp only [convert, exec] at h
    split at h
    · exact ih hm _ _ h
    · simp at h
  | store p a rest ih =>
    intro σ τ h
    simp only [convert, exec] at h
    split at h
    · exact ih hm _ _ h
    · simp at h
  | call m' args rest ih =>
    intro σ τ h
    simp only [convert, exec] at h
    split at h
    · obtain ⟨σ', _, h2⟩ := andThen_ok h
      exact ih hm _ _ h2
    · simp at h
  | default args rest _ =>
    intro σ τ h
    simp only [convert, exec] at h
    split at h
    · obtain ⟨σ', h1, _⟩ := andThen_ok h
      exact hstuck _ _ _ _ rfl h1
    · simp at h
  | dim x rest ih =>
    intro σ τ h
    simp only [convert, exec] at h
    exact ih hm _ _ h
  | scan n body rest ib ir =>
    intro σ τ h
    simp only [convert, exec] at h
    obtain ⟨σ', h1, h2⟩ := andThen_ok h
    rcases hm with ⟨hn, hb⟩ | hr
    · obtain ⟨_, _, h3⟩ := rounds_ok hn h1
      exact ib hb _ _ h3
    · exact ir hr _ _ h2
  | attempt to body handler rest ib ih ir =>
    intro σ τ h
    simp only [convert, exec] at h
    split at h
    · obtain ⟨σ', h1, h2⟩ := andThen_ok h
      rcases hm with ⟨_, hh⟩ | hr
      · exact ih hh _ _ h1
      · exact ir hr _ _ h2
    · obtain ⟨σ', h1, h2⟩ := andThen_ok h
      rcases hm with ⟨hb, _⟩ | hr
      · exact ib hb _ _ h1
      · exact ir hr _ _ h2

theorem invoke_ok {native chain search m args σ τ} {n : Nat} {f : Method} (hf : find search m = some f)
    (h : invoke native chain (n + 1) search m args σ = some (.ok τ)) :
    ∃ env, exec (invoke native chain n chain) (invoke native chain n chain.tail) env (convert f.header f.body) σ =
      some (.ok τ) := by
  simp only [invoke, hf] at h
  split at h
  · exact ⟨_, h⟩
  · simp at h

end MethodsAux

/-- In such classes a message has in the generated program the effects and the end that it has in
FoxPro: what is shown, the properties of the object and whether there is an error. -/
theorem C124_run_partial (native : Name → Bool) (chain : List Cls) (H : Proper native chain) (m : Name) (args : List Val)
    (σ : St) (r : Res) (h : Runs native chain (.message chain m args) σ r) :
    ∃ N, ∀ fuel, N ≤ fuel → invoke native chain fuel chain m args σ = some r :=
  does H h [] (Or.inl rfl)

/-- `o.add(5)`: the parent's method shows 5 and `.F.` and calls `keep` of the derived class, whose
error is caught; then 9 is shown. -/
example : ∃ N, ∀ fuel, N ≤ fuel →
    invoke (fun m => m == "init") [MethodsDemo.special, MethodsDemo.counter] fuel [MethodsDemo.special, MethodsDemo.counter]
      "add" [.num 5] ⟨[], []⟩ = some (.ok ⟨[("total", .num 9)], [.num 5, .no, .num 0, .num 9]⟩) := by
  refine C124_run_partial _ _ MethodsDemo.proper "add" [.num 5] ⟨[], []⟩ _ ?_
  refine .found (env := [("n", .num 5)]) ⟨[], _, rfl, rfl, by simp⟩ ⟨by decide, rfl⟩ ?_
  refine .default (.cons (.par rfl) .nil) (f := _) (after := []) ⟨[], _, rfl, rfl, by simp⟩
    (σ' := ⟨[("total", .num 9)], [.num 5, .no, .num 0]⟩) ?_ (.say (.prop rfl) .skip)
  refine .found (env := [("n", .num 5), ("m", .no)]) ⟨[], _, rfl, rfl, by simp⟩ ⟨by decide, rfl⟩ ?_
  refine .say (.par rfl) (.say (.par rfl) (.call (.cons (.par rfl) .nil) ?_ .skip))
  refine .found (env := [("n", .num 5)]) ⟨[], _, rfl, rfl, by simp⟩ ⟨by decide, rfl⟩ ?_
  refine .caught (.callErr .nil (.unknown ?_ rfl)) (.say (.lit 0) .skip) (.store (.lit 9) .skip)
  intro c hc
  simp only [List.mem_cons, List.not_mem_nil, or_false] at hc
  rcases hc with rfl | rfl <;> rfl

/-- The class in which the generated DODEFAULT looks first: it is the parent of the class of the
method exactly when the method belongs to the most derived class of the object. -/
theorem C124_target_iff (before after : List Cls) (c : Cls) (m : Name) (f : Method) (hc : c.lookup m = some f) :
    (∀ g rest, Means (before ++ c :: after).tail m g rest ↔ Means after m g rest) ↔ before = [] := by
  constructor
  · intro h
    cases before with
    | nil => rfl
    | cons b bs =>
      exfalso
      have hfind : ∃ g, find (bs ++ c :: after) m = some g := by
        cases hg : find (bs ++ c :: after) m with
        | some g => exact ⟨g, rfl⟩
        | none =>
          have := (find_none ..).mp hg c (by simp)
          rw [this] at hc
          cases hc
      obtain ⟨g, hg⟩ := hfind
      obtain ⟨rest, hr⟩ := means_find hg
      have h2 := (h g rest).mp hr
      obtain ⟨b1, c1, e1, l1, n1⟩ := hr
      obtain ⟨b2, c2, e2, _, _⟩ := h2
      have hlen1 : (bs ++ c :: after).length = b1.length + (rest.length + 1) := by rw [e1]; simp
      have hlen2 : after.length = b2.length + (rest.length + 1) := by rw [e2]; simp
      -- the class of `g` stands behind `c`, although `c` has the method
      have hb1 : c ∈ b1 := by
        have hlt : bs.length < b1.length := by
          simp only [List.length_append, List.length_cons] at hlen1
          omega
        have hget : (bs ++ c :: after)[bs.length]? = some c := by simp
        rw [e1, List.getElem?_append_left hlt] at hget
        exact List.mem_of_getElem? hget
      rw [n1 c hb1] at hc
      cases hc
  · rintro rfl g rest
    exact Iff.rfl

/-- Two classes above: the method of the first is not the first one found from the class of the
object. -/
example : ¬ ∀ g rest, Means ([[]] ++ MethodsDemo.subobj :: []).tail "init" g rest ↔ Means [] "init" g rest :=
  fun h => nomatch (C124_target_iff [[]] [] MethodsDemo.subobj "init" _ rfl).mp h

/-- A method that cannot go past DODEFAULT and is inherited by the class of the object, or called
there by DODEFAULT, never comes to a normal end: it calls itself. -/
theorem C124_inherited_fails (native : Name → Bool) (c : Cls) (cs : List Cls) (m : Name) (f : Method) (after : List Cls)
    (hf : Means cs m f after) (hh : f.header = [m]) (hd : MustDefault f.body)
    (hc : ∀ g, c.lookup m = some g → g.header = [m] ∧ MustDefault g.body) (fuel : Nat) (args : List Val) (σ τ : St) :
    invoke native (c :: cs) fuel (c :: cs) m args σ ≠ some (.ok τ) := by
  have htail : ∀ n args σ τ, invoke native (c :: cs) n cs m args σ ≠ some (.ok τ) := by
    intro n
    induction n with
    | zero => intro _ _ _ h; simp [invoke] at h
    | succ n ih =>
      intro args σ τ h
      obtain ⟨env, he⟩ := invoke_ok (find_means hf) h
      rw [hh] at he
      exact must_stuck (fun m' vs σ τ hm => by cases hm; exact ih vs σ τ) env f.body hd _ _ he
  cases fuel with
  | zero => intro h; simp [invoke] at h
  | succ n =>
    intro h
    cases hl : c.lookup m with
    | none =>
      have : find (c :: cs) m = some f := by
        have := find_means hf
        simp only [find] at this ⊢
        rw [List.findSome?_cons, hl]
        exact this
      obtain ⟨env, he⟩ := invoke_ok this h
      rw [hh] at he
      exact must_stuck (fun m' vs σ τ hm => by cases hm; exact htail n vs σ τ) env f.body hd _ _ he
    | some g =>
      obtain ⟨hg1, hg2⟩ := hc g hl
      have : find (c :: cs) m = some g := by simp [find, hl]
      obtain ⟨env, he⟩ := invoke_ok this h
      rw [hg1] at he
      exact must_stuck (fun m' vs σ τ hm => by cases hm; exact htail n vs σ τ) env g.body hg2 _ _ he

/-- The classes of the project's own test: creating an object of `subobj2` sets the property in
FoxPro and never ends in the generated program. -/
example : Runs (fun m => m == "init") [[], MethodsDemo.subobj] (.message [[], MethodsDemo.subobj] "init" [.num 4])
      ⟨[], []⟩ (.ok ⟨[("x", .num 4)], []⟩) ∧
    ∀ fuel τ, invoke (fun m => m == "init") [[], MethodsDemo.subobj] fuel [[], MethodsDemo.subobj] "init" [.num 4] ⟨[], []⟩ ≠
      some (.ok τ) := by
  refine ⟨?_, fun fuel τ => ?_⟩
  · refine .found (env := [("x", .num 4)]) (after := []) ⟨[[]], _, rfl, rfl, by simp⟩ ⟨by decide, rfl⟩ ?_
    exact .defaultNone .nil (fun c hc => nomatch hc) (.store (.par rfl) .skip)
  · exact C124_inherited_fails _ [] [MethodsDemo.subobj] "init" _ [] ⟨[], _, rfl, rfl, by simp⟩ rfl trivial
      (fun g hg => nomatch hg) fuel _ _ τ

/-- DODEFAULT in a class whose ancestors and base class in the runtime have no such method fails. -/
theorem C124_missing_fails (native : Name → Bool) (c : Cls) (cs : List Cls) (m : Name) (f : Method)
    (hc : c.lookup m = some f) (hh : f.header = [m]) (hd : MustDefault f.body) (hu : Unknown cs m) (hn : native m = false)
    (fuel : Nat) (args : List Val) (σ τ : St) :
    invoke native (c :: cs) fuel (c :: cs) m args σ ≠ some (.ok τ) := by
  cases fuel with
  | zero => intro h; simp [invoke] at h
  | succ n =>
    intro h
    have : find (c :: cs) m = some f := by simp [find, hc]
    obtain ⟨env, he⟩ := invoke_ok this h
    rw [hh] at he
    refine must_stuck (fun m' vs σ τ hm => ?_) env f.body hd _ _ he
    cases hm
    intro h2
    cases n with
    | zero => simp [invoke] at h2
    | succ k => simp [invoke, (find_none ..).mpr hu, hn] at h2

/-- `PROCEDURE click`, `DODEFAULT()`, `? 1` in a class of which no ancestor has `click`. -/
example : Runs (fun m => m == "init") [[("click", ⟨["click"], [], .default [] (.say (.lit 1) .skip)⟩)]]
      (.message [[("click", ⟨["click"], [], .default [] (.say (.lit 1) .skip)⟩)]] "click" []) ⟨[], []⟩ (.ok ⟨[], [.num 1]⟩) ∧
    ∀ fuel τ, invoke (fun m => m == "init") [[("click", ⟨["click"], [], .default [] (.say (.lit 1) .skip)⟩)]] fuel
      [[("click", ⟨["click"], [], .default [] (.say (.lit 1) .skip)⟩)]] "click" [] ⟨[], []⟩ ≠ some (.ok τ) :=
  ⟨.found (env := []) (after := []) ⟨[], _, rfl, rfl, by simp⟩ ⟨by decide, rfl⟩
      (.defaultNone .nil (fun c hc => nomatch hc) (.say (.lit 1) .skip)),
    fun fuel τ => C124_missing_fails _ _ [] "click" _ rfl rfl (by exact trivial) (fun c hc => nomatch hc) rfl fuel _ _ τ⟩

/-- DODEFAULT in a method of a member object fails. -/
theorem C124_member_fails (native : Name → Bool) (c : Cls) (cs : List Cls) (o m : Name) (f : Method)
    (hc : c.lookup m = some f) (hh : f.header = [o, m]) (hd : MustDefault f.body)
    (fuel : Nat) (args : List Val) (σ τ : St) :
    invoke native (c :: cs) fuel (c :: cs) m args σ ≠ some (.ok τ) := by
  cases fuel with
  | zero => intro h; simp [invoke] at h
  | succ n =>
    intro h
    have : find (c :: cs) m = some f := by simp [find, hc]
    obtain ⟨env, he⟩ := invoke_ok this h
    rw [hh] at he
    exact must_stuck (fun m' vs σ τ hm => by cases hm) env f.body hd _ _ he

/-- `PROCEDURE cmd1.click`, `DODEFAULT()` for a button of a class that has `click`. -/
example : Runs (fun _ => false) [[("click", ⟨["cmd1", "click"], [], .default [] .skip⟩)], [("click", ⟨["click"], [], .say (.lit 1) .skip⟩)]]
      (.message [[("click", ⟨["cmd1", "click"], [], .default [] .skip⟩)], [("click", ⟨["click"], [], .say (.lit 1) .skip⟩)]] "click" [])
      ⟨[], []⟩ (.ok ⟨[], [.num 1]⟩) ∧
    ∀ fuel τ, invoke (fun _ => false) [[("click", ⟨["cmd1", "click"], [], .default [] .skip⟩)], [("click", ⟨["click"], [], .say (.lit 1) .skip⟩)]]
      fuel [[("click", ⟨["cmd1", "click"], [], .default [] .skip⟩)], [("click", ⟨["click"], [], .say (.lit 1) .skip⟩)]] "click" [] ⟨[], []⟩ ≠
        some (.ok τ) := by
  refine ⟨.found (env := []) ⟨[], _, rfl, rfl, by simp⟩ ⟨by decide, rfl⟩ ?_,
    fun fuel τ => C124_member_fails _ _ _ "cmd1" "click" _ rfl rfl (by exact trivial) fuel _ _ τ⟩
  refine .default .nil (f := ⟨["click"], [], .say (.lit 1) .skip⟩) (after := []) ⟨[], _, rfl, rfl, by simp⟩
    (σ' := ⟨[], [.num 1]⟩) ?_ .skip
  exact .found (env := []) ⟨[], _, rfl, rfl, by simp⟩ ⟨by decide, rfl⟩ (.say (.lit 1) .skip)

end Props
