import Verif.Spec.Member
import Verif.Props.ModuleNames
/-!
# C122: references to members of objects
-/
namespace Props
open Model.Paths MemberSpec
open Model.ModuleNames (keywords identifier scopeVal islower validIdentifier Access)
open ModuleNameSpec (IsName HasLetter)
open ModuleNameAux

namespace PathsSpec

/-- The names in a list of steps. -/
def StepNames (steps : List Step) : Prop := ∀ n, .attr n ∈ steps → IsName n

/-- No member has the name of a keyword of Python. -/
def NoKeywords (steps : List Step) : Prop := ∀ n, .attr n ∈ steps → lower n ∉ keywords

/-- The reference ends in a call of a member GETITEM with one argument, or SETITEM or CALLMETHOD with two. -/
def Special (steps : List Step) : Prop :=
  ∃ pre m as, steps = pre ++ [.attr m, .args as] ∧
    ((lower m = "getitem".toList ∧ as.length = 1) ∨ ((lower m = "setitem".toList ∨ lower m = "callmethod".toList) ∧ as.length = 2))

end PathsSpec
open PathsSpec

namespace PathsAux

theorem commas_joined : ∀ as : List (List Char), commas as = joined as
  | [] => rfl
  | [a] => by simp [commas, joined, List.intercalate]
  | a :: b :: as => by
    rw [commas, commas_joined (b :: as)]
    · simp [joined, List.intercalate, List.intersperse]
    · simp

theorem identifier_lower {n : Str} (h : lower n ∉ keywords) : identifier n = lower n :=
  identifier_eq (fun he => h (by show lower n ∈ keywords; rw [show lower n = "class".toList from he]; decide))

theorem identifier_keyword {n : Str} (h : lower n ∈ keywords) : identifier n = lower n ∨ identifier n = "classtype".toList := by
  by_cases hc : n.map Char.toLower = "class".toList
  · exact .inr (identifier_class hc)
  · exact .inl (identifier_eq hc)

/-- The text of steps without keywords. -/
theorem path_text : ∀ (steps : List Step) (b : Str), NoKeywords steps → path b steps = some (b ++ stepsText (steps.map visitStep))
  | [], b, _ => by simp [path, stepsText]
  | .attr n :: ss, b, h => by
    have hn := h n (List.mem_cons_self ..)
    have hr : NoKeywords ss := fun m hm => h m (List.mem_cons_of_mem _ hm)
    simp only [path, stepCode, if_neg hn, Option.bind_some, path_text ss _ hr]
    simp [stepsText, visitStep, stepText, identifier_lower hn]
  | .args as :: ss, b, h => by
    have hr : NoKeywords ss := fun m hm => h m (List.mem_cons_of_mem _ hm)
    simp only [path, stepCode, Option.bind_some, path_text ss _ hr]
    simp [stepsText, visitStep, stepText, commas_joined]

theorem path_none : ∀ (steps : List Step) (b : Str), ¬ NoKeywords steps → path b steps = none
  | [], b, h => absurd (fun n hn => by cases hn) h
  | .attr n :: ss, b, h => by
    by_cases hn : lower n ∈ keywords
    · simp [path, stepCode, hn]
    · simp only [path, stepCode, if_neg hn, Option.bind_some]
      refine path_none ss _ fun hs => h fun m hm => ?_
      rcases List.mem_cons.mp hm with he | hm
      · cases he; exact hn
      · exact hs m hm
  | .args as :: ss, b, h => by
    simp only [path, stepCode, Option.bind_some]
    refine path_none ss _ fun hs => h fun m hm => ?_
    rcases List.mem_cons.mp hm with he | hm
    · cases he
    · exact hs m hm

theorem keyword_this : "this".toList ∉ keywords ∧ "thisform".toList ∉ keywords := by decide

/-- `createIdAttr` of an ordinary trailer. -/
theorem create_ordinary (F : Other) (id : Str) (steps : List Step) (hc : ∀ as, steps ≠ [.args as])
    (hs : ∀ pre m as, steps = pre ++ [.attr m, .args as] →
      ¬ (m = "getitem".toList ∧ as.length = 1) ∧ ¬ ((m = "setitem".toList ∨ m = "callmethod".toList) ∧ as.length = 2)) :
    createIdAttr F id steps = rootText id ++ stepsText steps := by
  unfold createIdAttr
  generalize hr : steps.reverse = rs
  have hst : steps = rs.reverse := by rw [← hr, List.reverse_reverse]
  subst hst
  match rs, hc, hs with
  | [], _, _ => rfl
  | [.args as], hc, _ => exact absurd rfl (hc as)
  | .attr n :: rest, _, _ => simp [createRev]
  | .args as :: .args bs :: rest, _, _ => simp [createRev]
  | .args as :: .attr m :: rest, _, hs =>
    have h := hs rest.reverse m as (by simp)
    match as, h with
    | [], _ => simp [createRev]
    | [a], h =>
      have : m ≠ "getitem".toList := fun he => h.1 ⟨he, rfl⟩
      rw [createRev]
      simp only [if_neg this]
    | [a, b], h =>
      have h1 : m ≠ "setitem".toList := fun he => h.2 ⟨.inl he, rfl⟩
      have h2 : m ≠ "callmethod".toList := fun he => h.2 ⟨.inr he, rfl⟩
      rw [createRev]
      simp only [if_neg h1, if_neg h2]
    | a :: b :: c :: as, _ => simp [createRev]

theorem create_special_free (F : Other) (id : Str) (steps : List Step) (hc : ∀ as, steps ≠ [.args as]) (hs : ¬ Special steps) :
    createIdAttr F id (steps.map visitStep) = rootText id ++ stepsText (steps.map visitStep) := by
  refine create_ordinary F id _ (fun as h => ?_) fun pre m as h => ?_
  · match steps, h, hc with
    | [.args bs], h, hc => exact hc bs rfl
    | [.attr n], h, _ => simp [visitStep] at h
  · obtain ⟨l1, l2, rfl, h1, h2⟩ := List.map_eq_append_iff.mp h
    match l2, h2 with
    | [.attr n, .args bs], h2 =>
      simp only [List.map_cons, List.map_nil, visitStep, List.cons.injEq, Step.attr.injEq, Step.args.injEq, and_true] at h2
      obtain ⟨rfl, rfl⟩ := h2
      have hkey : ∀ w : Str, w ≠ "classtype".toList → identifier n = w → lower n = w := by
        intro w hw he
        by_cases hcl : n.map Char.toLower = "class".toList
        · rw [identifier_class hcl] at he; exact absurd he.symm hw
        · rwa [identifier_eq hcl] at he
      exact ⟨fun ⟨e, hl⟩ => hs ⟨l1, n, bs, rfl, .inl ⟨hkey _ (by decide) e, hl⟩⟩,
        fun ⟨e, hl⟩ => hs ⟨l1, n, bs, rfl, .inr ⟨e.imp (hkey _ (by decide)) (hkey _ (by decide)), hl⟩⟩⟩
    | [.attr n, .attr _], h2 => simp [visitStep] at h2
    | [.args n, _], h2 => simp [visitStep] at h2

/-- The root of names. -/
theorem root_text {x : Str} (hx : IsName x) (hl : HasLetter x) (hk : lower x ∉ keywords) : root x = some (rootText (identifier x)) := by
  rw [identifier_lower hk]
  have h1 : islower (lower x) = true := (islower_iff hx).mpr hl
  unfold root rootText scopeVal
  rw [if_pos h1]
  split
  · rfl
  · split
    · rfl
    · have hv : validIdentifier (lower x) = true := (valid_iff (lower_name hx)).mpr hk
      rw [if_pos hv]
      rfl

/-- A reference under the conditions of `C122_reference_iff`. -/
theorem refer_plain (F : Other) (w : Str) (r : Ref) (hd : r.dotted = false) (hc : ∀ as, r.steps ≠ [.args as]) (hs : ¬ Special r.steps) :
    refer F w r = rootText (identifier r.first) ++ stepsText (r.steps.map visitStep) := by
  unfold refer
  rw [hd, Bool.false_and, if_neg (by decide), create_special_free F _ _ hc hs]

end PathsAux
open PathsAux

/-- C122: outside of WITH a reference to a member becomes the same reference in Python, exactly if the first name
has a letter and no name is a keyword of Python; for all references that are no calls and do not end in one
of the members in `Special`. -/
theorem C122_reference_iff (F : Other) (r : Ref) (hd : r.dotted = false) (hx : IsName r.first) (hc : ∀ as, r.steps ≠ [.args as])
    (hs : ¬ Special r.steps) :
    meaning [] r = some (refer F [] r) ↔ HasLetter r.first ∧ lower r.first ∉ keywords ∧ NoKeywords r.steps := by
  have hrefer := refer_plain F [] r hd hc hs
  have hm : meaning [] r = (root r.first).bind fun b => path b r.steps := by
    unfold meaning; rw [hd]; rfl
  rw [hrefer, hm]
  constructor
  · intro h
    by_cases hk : lower r.first ∈ keywords
    · exfalso
      have : root r.first = none := by
        unfold root
        rw [if_neg (fun e => keyword_this.1 (by rw [← e]; exact hk)), if_neg (fun e => keyword_this.2 (by rw [← e]; exact hk)), if_pos hk]
      rw [this] at h; cases h
    · have hn : NoKeywords r.steps := by
        by_cases hn : NoKeywords r.steps
        · exact hn
        · exfalso
          cases hr : root r.first with
          | none => rw [hr] at h; cases h
          | some b => rw [hr, Option.bind_some, path_none _ _ hn] at h; cases h
      refine ⟨?_, hk, hn⟩
      by_cases hl : HasLetter r.first
      · exact hl
      · exfalso
        have hi : islower (lower r.first) = false := by
          cases h' : islower (lower r.first) with
          | false => rfl
          | true => exact absurd ((islower_iff hx).mp h') hl
        have h1 : lower r.first ≠ "this".toList := fun e => by rw [e] at hi; revert hi; decide
        have h2 : lower r.first ≠ "thisform".toList := fun e => by rw [e] at hi; revert hi; decide
        have hr : root r.first = some ("S.".toList ++ lower r.first) := by
          unfold root; rw [if_neg h1, if_neg h2, if_neg hk]
        rw [hr, Option.bind_some, path_text _ _ hn, identifier_lower hk] at h
        unfold rootText at h
        rw [hi] at h
        have := congrArg (fun o => (o.getD []).length) h
        simp at this
        omega
  · rintro ⟨hl, hk, hn⟩
    rw [root_text hx hl hk, Option.bind_some, path_text _ _ hn]

/-- `THISFORM.Grid.Columns(2).Width` -/
def columnWidth : Ref := ⟨false, "ThisForm".toList, [.attr "Grid".toList, .attr "Columns".toList, .args ["2".toList], .attr "Width".toList]⟩

example (F : Other) : meaning [] columnWidth = some (refer F [] columnWidth) ∧
    refer F [] columnWidth = "self.parentform.grid.columns(2).width".toList := by
  refine ⟨(C122_reference_iff F columnWidth rfl ⟨'T', "hisForm".toList, by decide, .inl (by decide), by decide⟩ (by simp [columnWidth]) ?_).mpr
    ⟨⟨'T', by decide, by decide⟩, by decide, ?_⟩, rfl⟩
  · rintro ⟨pre, m, as, h, -⟩
    have := congrArg List.getLast? h
    simp [columnWidth] at this
  · intro n hn
    simp only [columnWidth, List.mem_cons, Step.attr.injEq, reduceCtorEq, List.not_mem_nil, or_false, false_or] at hn
    rcases hn with rfl | rfl | rfl <;> decide

/-- C122: a line that is a reference to a member calls the member; a call that is written out is left. -/
theorem C122_command (F : Other) (r : Ref) (hd : r.dotted = false) (hx : IsName r.first) (hc : ∀ as, r.steps ≠ [.args as])
    (hs : ¬ Special r.steps) (hl : HasLetter r.first) (hk : lower r.first ∉ keywords) (hn : NoKeywords r.steps) (hne : r.steps ≠ []) :
    (meaning [] r).map (called r.steps) = some (command F [] r) := by
  rw [(C122_reference_iff F r hd hx hc hs).mpr ⟨hl, hk, hn⟩]
  unfold command called
  rw [← List.head?_reverse]
  match h : r.steps.reverse with
  | [] => exact absurd (List.reverse_eq_nil_iff.mp h) hne
  | .attr n :: rest => simp
  | .args as :: rest => simp

/-- `oDoc.Print` -/
example (F : Other) : command F [] ⟨false, "oDoc".toList, [.attr "Print".toList]⟩ = "S.odoc.print()".toList := by
  have h := C122_command F ⟨false, "oDoc".toList, [.attr "Print".toList]⟩ rfl ⟨'o', "Doc".toList, by decide, .inl (by decide), by decide⟩
    (by simp) (by
      rintro ⟨pre, m, as, h, -⟩
      have := congrArg List.getLast? h
      simp at this) ⟨'o', by decide, by decide⟩ (by decide) (by
      intro n hn
      simp only [List.mem_cons, Step.attr.injEq, List.not_mem_nil, or_false] at hn
      rcases hn with rfl; decide) (by simp)
  exact (Option.some.inj h).symm

/-- C122: the target of an assignment to an element of an array that is a member. -/
theorem C122_element (F : Other) (r : Ref) (as : List Str) (hd : r.dotted = false) (hx : IsName r.first)
    (hc : ∀ as, r.steps ≠ [.args as]) (hs : ¬ Special r.steps) (hl : HasLetter r.first) (hk : lower r.first ∉ keywords)
    (hn : NoKeywords r.steps) :
    targetMeaning [] { r with steps := r.steps ++ [.args as] } = some (target F [] { r with steps := r.steps ++ [.args as] }) := by
  have h := (C122_reference_iff F r hd hx hc hs).mpr ⟨hl, hk, hn⟩
  unfold targetMeaning target
  rw [refer_plain F [] r hd hc hs] at h
  simp only [List.getLast?_append, List.getLast?_singleton, Option.or_some, List.dropLast_concat, List.reverse_append,
    List.reverse_cons, List.reverse_nil, List.nil_append, List.singleton_append, List.reverse_reverse]
  rw [create_special_free F _ _ hc hs]
  simp only [Option.some_or, h, Option.map_some]

/-- `oForm.aItems(i) = ..` -/
example (F : Other) : targetMeaning [] ⟨false, "oForm".toList, [.attr "aItems".toList, .args ["S.i".toList]]⟩ =
    some "S.oform.aitems[S.i]".toList :=
  C122_element F ⟨false, "oForm".toList, [.attr "aItems".toList]⟩ ["S.i".toList] rfl ⟨'o', "Form".toList, by decide, .inl (by decide), by decide⟩
    (by simp) (by
      rintro ⟨pre, m, as, h, -⟩
      have := congrArg List.getLast? h
      simp at this) ⟨'o', by decide, by decide⟩ (by decide) (by
      intro n hn
      simp only [List.mem_cons, Step.attr.injEq, List.not_mem_nil, or_false] at hn
      rcases hn with rfl; decide)

/-- C122 fails for members called GETITEM and SETITEM: they are not called. -/
theorem C122_item_fails (F : Other) (r : Ref) (hd : r.dotted = false) (hx : IsName r.first) (hc : ∀ as, r.steps ≠ [.args as])
    (hs : ¬ Special r.steps) (hl : HasLetter r.first) (hk : lower r.first ∉ keywords) (hn : NoKeywords r.steps) (a b t : Str)
    (ht : meaning [] r = some t) :
    (meaning [] { r with steps := r.steps ++ [.attr "getitem".toList, .args [a]] } = some (t ++ ".getitem(".toList ++ a ++ [')']) ∧
      refer F [] { r with steps := r.steps ++ [.attr "getitem".toList, .args [a]] } = t ++ '[' :: a ++ [']']) ∧
    (meaning [] { r with steps := r.steps ++ [.attr "setitem".toList, .args [a, b]] } = some (t ++ ".setitem(".toList ++ a ++ ", ".toList ++ b ++ [')']) ∧
      refer F [] { r with steps := r.steps ++ [.attr "setitem".toList, .args [a, b]] } = t ++ '[' :: a ++ "] = ".toList ++ b) := by
  have h := (C122_reference_iff F r hd hx hc hs).mpr ⟨hl, hk, hn⟩
  rw [refer_plain F [] r hd hc hs, ht, Option.some.injEq] at h
  have hroot : (root r.first).bind (fun c => path c r.steps) = some t := by
    rw [← ht]; unfold meaning; rw [hd]; rfl
  have happ : ∀ (l m : List Step) (c : Str), path c (l ++ m) = (path c l).bind fun d => path d m := by
    intro l
    induction l with
    | nil => intro m c; rfl
    | cons s l ih =>
      intro m c
      simp only [List.cons_append, path]
      cases stepCode s with
      | none => rfl
      | some t => exact ih m _
  have hmean : ∀ m : List Step, meaning [] { r with steps := r.steps ++ m } = path t m := by
    intro m
    unfold meaning
    rw [hd]
    simp only [Bool.false_eq_true, if_false]
    cases hr : root r.first with
    | none => rw [hr] at hroot; cases hroot
    | some c =>
      rw [hr, Option.bind_some] at hroot
      rw [Option.bind_some, happ, hroot, Option.bind_some]
  have hcr : createRev F (identifier r.first) (r.steps.map visitStep).reverse = t := by
    have := create_special_free F (identifier r.first) r.steps hc hs
    unfold createIdAttr at this
    rw [this, ← h]
  have k1 : lower "getitem".toList = "getitem".toList := by decide
  have k2 : lower "setitem".toList = "setitem".toList := by decide
  have i1 : identifier "getitem".toList = "getitem".toList := by decide
  have i2 : identifier "setitem".toList = "setitem".toList := by decide
  have n1 : "getitem".toList ∉ keywords := by decide
  have n2 : "setitem".toList ∉ keywords := by decide
  refine ⟨⟨?_, ?_⟩, ?_, ?_⟩
  · rw [hmean]
    simp only [path, stepCode, k1, if_neg n1, Option.bind_some, commas]
    simp
  · unfold refer
    simp only [hd, Bool.false_and, Bool.false_eq_true, if_false, createIdAttr, List.map_append, List.map_cons, List.map_nil, visitStep, i1,
      List.reverse_append, List.reverse_cons, List.reverse_nil, List.nil_append, List.singleton_append, List.cons_append]
    rw [createRev, hcr]
    simp
  · rw [hmean]
    simp only [path, stepCode, k2, if_neg n2, Option.bind_some, commas]
    simp
  · unfold refer
    simp only [hd, Bool.false_and, Bool.false_eq_true, if_false, createIdAttr, List.map_append, List.map_cons, List.map_nil, visitStep, i2,
      List.reverse_append, List.reverse_cons, List.reverse_nil, List.nil_append, List.singleton_append, List.cons_append]
    rw [createRev, hcr]
    simp

example (F : Other) : refer F [] ⟨false, "oList".toList, [.attr "GetItem".toList, .args ["1".toList]]⟩ = "S.olist[1]".toList ∧
    refer F [] ⟨false, "oList".toList, [.attr "SetItem".toList, .args ["1".toList, "'x'".toList]]⟩ = "S.olist[1] = 'x'".toList := ⟨rfl, rfl⟩

/-- C122 fails for members of what a function of the program returns: `f(x).name` calls what the variable f
holds. -/
theorem C122_function_fails (F : Other) (f : Str) (as : List Str) (n : Str) (hf : IsName f) (hl : HasLetter f) (hk : lower f ∉ keywords)
    (h1 : lower f ≠ "this".toList) (h2 : lower f ≠ "thisform".toList) :
    refer F [] ⟨false, f, [.args as, .attr n]⟩ = "S.".toList ++ lower f ++ '(' :: joined as ++ [')'] ++ '.' :: identifier n ∧
    refer F [] ⟨false, f, [.args as, .attr n]⟩ ≠ lower f ++ '(' :: joined as ++ [')'] ++ '.' :: identifier n := by
  have hrt : rootText (identifier f) = "S.".toList ++ lower f := by
    have := root_text hf hl hk
    unfold root at this
    rw [if_neg h1, if_neg h2, if_neg hk] at this
    exact (Option.some.inj this).symm
  have h : refer F [] ⟨false, f, [.args as, .attr n]⟩ = "S.".toList ++ lower f ++ '(' :: joined as ++ [')'] ++ '.' :: identifier n := by
    rw [refer_plain F [] _ rfl (by simp) (by
      rintro ⟨pre, m, bs, h, -⟩
      have := congrArg List.getLast? h
      simp at this)]
    simp only [hrt]
    simp [stepsText, visitStep, stepText]
  refine ⟨h, fun e => ?_⟩
  rw [h] at e
  have := congrArg List.length e
  simp at this
  omega

example (F : Other) : refer F [] ⟨false, "getOrder".toList, [.args ["7".toList], .attr "Total".toList]⟩ = "S.getorder(7).total".toList :=
  (C122_function_fails F "getOrder".toList ["7".toList] "Total".toList ⟨'g', "etOrder".toList, by decide, .inl (by decide), by decide⟩
    ⟨'g', by decide, by decide⟩ (by decide) (by decide) (by decide)).1

end Props
