import Verif.Props.Paths
/-!
# WITH blocks (C54)
-/
namespace Props
open Model.Paths MemberSpec PathsSpec PathsAux
open Model.ModuleNames (keywords identifier scopeVal islower validIdentifier Access)
open ModuleNameSpec (IsName HasLetter)
open ModuleNameAux

/-! ## Specification -/

namespace WithSpec

/-- A reference whose names have letters and are no keywords of Python, and which is not a call or in `Special`. -/
def Fine (r : Ref) : Prop :=
  IsName r.first ∧ HasLetter r.first ∧ lower r.first ∉ keywords ∧ NoKeywords r.steps ∧
  (if r.dotted then ¬ Special (.attr r.first :: r.steps) else (∀ as, r.steps ≠ [.args as]) ∧ ¬ Special r.steps)

/-- No line refers to the object of an enclosing WITH block. -/
def NoDots : List Line → Prop
  | [] => True
  | .use r :: ls => r.dotted = false ∧ NoDots ls
  | .store r :: ls => r.dotted = false ∧ NoDots ls
  | .block object _ :: ls => object.dotted = false ∧ NoDots ls

/-- The object of a WITH block is not THIS or THISFORM or a part of them. -/
def Variable (object : Ref) : Prop :=
  object.dotted = false → lower object.first ≠ "this".toList ∧ lower object.first ≠ "thisform".toList

/-- An assignment to a variable or member, or to an element of an array whose reference does not begin with a dot. -/
def Whole (r : Ref) : Prop :=
  match r.steps.getLast? with
  | some (.args _) => r.dotted = false ∧ Fine { r with steps := r.steps.dropLast }
  | _ => Fine r

/-- Behind a nested WITH block no line refers to the object of an enclosing one. -/
def Clean : List Line → Prop
  | [] => True
  | .use r :: ls => Fine r ∧ Clean ls
  | .store r :: ls => Whole r ∧ Clean ls
  | .block object body :: ls => Fine object ∧ Variable object ∧ Clean body ∧ NoDots ls ∧ Clean ls

end WithSpec
open WithSpec

namespace WithAux

/-- Texts that `createIdAttr` leaves as they are. -/
def Kept (w : Str) : Prop := ∃ v, w = 'S' :: v

theorem kept_root {w : Str} (h : Kept w) : rootText w = w := by
  obtain ⟨v, rfl⟩ := h
  unfold rootText
  rw [if_neg (by simp [islower])]

theorem fine_plain {r : Ref} (F : Other) (w : Str) (h : Fine r) (hd : r.dotted = false) (os : List Str) :
    meaning os r = some (refer F w r) := by
  obtain ⟨h1, h2, h3, h4, h5⟩ := h
  rw [hd] at h5
  have := (C122_reference_iff F r hd h1 h5.1 h5.2).mpr ⟨h2, h3, h4⟩
  rw [refer_plain F w r hd h5.1 h5.2]
  rw [refer_plain F [] r hd h5.1 h5.2] at this
  rw [← this]
  unfold meaning
  rw [hd]; rfl

theorem fine_dotted {r : Ref} (F : Other) {w : Str} (h : Fine r) (hd : r.dotted = true) (hw : Kept w) (os : List Str) :
    meaning (w :: os) r = some (refer F w r) := by
  obtain ⟨h1, h2, h3, h4, h5⟩ := h
  rw [if_pos hd] at h5
  have hne : w ≠ [] := by obtain ⟨v, rfl⟩ := hw; exact List.cons_ne_nil _ _
  have hb : (w != []) = true := by simpa using hne
  have hn : NoKeywords (.attr r.first :: r.steps) := by
    intro n hn
    rcases List.mem_cons.mp hn with he | hn
    · cases he; exact h3
    · exact h4 n hn
  unfold meaning refer
  rw [if_pos hd, hd, hb, Bool.and_self, if_pos rfl]
  show path w _ = _
  have := create_special_free F w (.attr r.first :: r.steps) (by simp) h5
  rw [List.map_cons] at this
  rw [path_text _ _ hn, show Step.attr (identifier r.first) = visitStep (.attr r.first) from rfl, this, kept_root hw]
  rfl

theorem refer_kept {r : Ref} (F : Other) {w : Str} (h : Fine r) (hv : Variable r) (hw : r.dotted = true → Kept w) : Kept (refer F w r) := by
  cases hd : r.dotted with
  | false =>
    obtain ⟨h1, h2, h3, h4, h5⟩ := h
    rw [hd] at h5
    rw [refer_plain F w r hd h5.1 h5.2]
    have := root_text h1 h2 h3
    unfold root at this
    rw [if_neg (hv hd).1, if_neg (hv hd).2, if_neg h3] at this
    rw [← Option.some.inj this]
    exact ⟨_, rfl⟩
  | true =>
    have hm := fine_dotted F h hd (hw hd) []
    obtain ⟨h1, h2, h3, h4, h5⟩ := h
    unfold meaning at hm
    rw [if_pos hd] at hm
    have hn : NoKeywords (.attr r.first :: r.steps) := by
      intro n hn
      rcases List.mem_cons.mp hn with he | hn
      · cases he; exact h3
      · exact h4 n hn
    have hm' : path w (.attr r.first :: r.steps) = some (refer F w r) := hm
    rw [path_text _ _ hn] at hm'
    obtain ⟨v, rfl⟩ := hw hd
    rw [← Option.some.inj hm']
    exact ⟨_, rfl⟩

theorem whole_sound {r : Ref} (F : Other) {w : Str} (h : Whole r) (os : List Str) (hw : r.dotted = true → Kept w) :
    targetMeaning (if r.dotted then w :: os else os) r = some (target F w r) := by
  unfold Whole at h
  unfold targetMeaning target
  rw [← List.head?_reverse] at h ⊢
  match hr : r.steps.reverse with
  | [] =>
    rw [hr] at h
    simp only [List.head?_nil] at h ⊢
    cases hd : r.dotted with
    | false => exact fine_plain F w h hd os
    | true => exact fine_dotted F h hd (hw hd) os
  | .attr n :: rest =>
    rw [hr] at h
    simp only [List.head?_cons] at h ⊢
    cases hd : r.dotted with
    | false => exact fine_plain F w h hd os
    | true => exact fine_dotted F h hd (hw hd) os
  | .args as :: rest =>
    rw [hr] at h
    simp only [List.head?_cons] at h ⊢
    obtain ⟨hd, hf⟩ := h
    have hst : r.steps.dropLast = rest.reverse := by
      have : r.steps = rest.reverse ++ [.args as] := by
        rw [← List.reverse_reverse r.steps, hr, List.reverse_cons]
      rw [this, List.dropLast_concat]
    have hm := fine_plain F w hf hd (if r.dotted then w :: os else os)
    rw [hm, Option.map_some]
    obtain ⟨h1, h2, h3, h4, h5⟩ := hf
    rw [if_neg (by simp [hd])] at h5
    rw [refer_plain F w { r with steps := r.steps.dropLast } hd h5.1 h5.2, ← hst, create_special_free F _ _ h5.1 h5.2]

/-- Either the current object is known, or no line needs it. -/
theorem lines_sound (F : Other) : ∀ (ls : List Line) (os : List Str) (w : Str),
    Clean ls → ((∃ os', os = w :: os' ∧ Kept w) ∨ NoDots ls) → linesMean os ls = some (convLines F w ls).1
  | [], os, w, _, _ => by simp [linesMean, convLines]
  | .use r :: ls, os, w, h, hw => by
    simp only [Clean] at h
    obtain ⟨hf, hc⟩ := h
    have ih := lines_sound F ls os w hc (hw.imp_right And.right)
    have hm : meaning os r = some (refer F w r) := by
      cases hd : r.dotted with
      | false => exact fine_plain F w hf hd os
      | true =>
        rcases hw with ⟨os', rfl, hk⟩ | hn
        · exact fine_dotted F hf hd hk os'
        · rw [hn.1] at hd; cases hd
    simp only [linesMean, lineMeans, hm, Option.map_some, Option.bind_some, ih, convLines, convLine]
  | .store r :: ls, os, w, h, hw => by
    simp only [Clean] at h
    obtain ⟨hf, hc⟩ := h
    have ih := lines_sound F ls os w hc (hw.imp_right And.right)
    have hm : targetMeaning os r = some (target F w r) := by
      rcases hw with ⟨os', rfl, hk⟩ | hn
      · cases hd : r.dotted with
        | true => have := whole_sound F hf os' (fun _ => hk); rwa [if_pos hd] at this
        | false => have := whole_sound F (w := w) hf (w :: os') (fun h => by rw [hd] at h; cases h); rwa [if_neg (by simp [hd])] at this
      · have := whole_sound F (w := w) hf os (fun h => by rw [hn.1] at h; cases h)
        rwa [if_neg (by simp [hn.1])] at this
    simp only [linesMean, lineMeans, hm, Option.map_some, Option.bind_some, ih, convLines, convLine]
  | .block object body :: ls, os, w, h, hw => by
    simp only [Clean] at h
    obtain ⟨hf, hv, hb, hn, hc⟩ := h
    have hm : meaning os object = some (refer F w object) := by
      cases hd : object.dotted with
      | false => exact fine_plain F w hf hd os
      | true =>
        rcases hw with ⟨os', rfl, hk⟩ | hn
        · exact fine_dotted F hf hd hk os'
        · rw [hn.1] at hd; cases hd
    have hk : Kept (refer F w object) := refer_kept F hf hv fun hd => by
      rcases hw with ⟨os', rfl, hk⟩ | hn
      · exact hk
      · rw [hn.1] at hd; cases hd
    have hbody := lines_sound F body (refer F w object :: os) (refer F w object) hb (.inl ⟨os, rfl, hk⟩)
    have ih := lines_sound F ls os [] hc (.inr hn)
    simp only [linesMean, lineMeans, hm, Option.bind_some, hbody, ih, Option.map_some, convLines, convLine]

theorem not_special_two (a b : Str) : ¬ Special [.attr a, .attr b] := by
  rintro ⟨pre, m, as, h, -⟩
  have := congrArg List.getLast? h
  simp at this

theorem not_special_one (a : Str) : ¬ Special [.attr a] := by
  rintro ⟨pre, m, as, h, -⟩
  have := congrArg List.getLast? h
  simp at this

theorem not_special_nil : ¬ Special [] := by
  rintro ⟨pre, m, as, h, -⟩
  simp at h

/-- The text of a reference to THIS or THISFORM begins with `self`. -/
theorem self_text {o : Ref} (F : Other) (w : Str) (ho : Fine o) (hd : o.dotted = false)
    (ht : lower o.first = "this".toList ∨ lower o.first = "thisform".toList) : ∃ v, refer F w o = "self".toList ++ v := by
  obtain ⟨h1, h2, h3, h4, h5⟩ := ho
  rw [if_neg (by simp [hd])] at h5
  rw [refer_plain F w o hd h5.1 h5.2]
  have := root_text h1 h2 h3
  unfold root at this
  rcases ht with ht | ht
  · rw [if_pos ht] at this
    rw [← Option.some.inj this]
    exact ⟨_, rfl⟩
  · rw [if_neg (by rw [ht]; decide), if_pos ht] at this
    rw [← Option.some.inj this]
    exact ⟨".parentform".toList ++ stepsText (o.steps.map visitStep), by simp⟩

theorem attr_length (s n : Str) : (accessText (.attr s n)).length = s.length + n.length + 1 := by
  show (s ++ '.' :: n).length = _
  rw [List.length_append, List.length_cons]; omega
theorem index_length (s n : Str) : (accessText (.index s n)).length = s.length + n.length + 2 := by
  show (s ++ ('[' :: n) ++ [']']).length = _
  rw [List.length_append, List.length_append, List.length_cons]
  show _ + 1 = _
  omega

theorem access_longer (t v : Str) (ht : t = "self".toList ++ v) : accessText (scopeVal t) ≠ t := by
  intro h
  have hlen := congrArg List.length h
  have h1 : t ≠ "this".toList := by rw [ht]; intro h; cases congrArg List.head? h
  have h2 : t ≠ "thisform".toList := by rw [ht]; intro h; cases congrArg List.head? h
  unfold scopeVal at hlen
  rw [if_neg h1, if_neg h2] at hlen
  split at hlen
  · rw [attr_length] at hlen; omega
  · rw [index_length] at hlen; omega

end WithAux
open WithAux

/-- C54: references with a leading dot refer to the object of the innermost WITH block.  Missing: references to
the object of an enclosing block behind the end of a nested one (`C54_with_fails`), blocks for THIS and THISFORM
(`C54_this_fails`), assignments to elements of arrays (`C54_element_fails`). -/
theorem C54_with_partial (F : Other) (lines : List Line) (hclean : Clean lines) (hout : NoDots lines) :
    linesMean [] lines = some (convLines F [] lines).1 :=
  lines_sound F lines [] [] hclean (.inr hout)

/-- C54: a line of its own like `.Refresh` inside a WITH block for the object `w` (the converted text of a variable or
of a part of one) calls that member. -/
theorem C54_command_partial (F : Other) (w : Str) (os : List Str) (r : Ref) (hr : Fine r) (hd : r.dotted = true)
    (hw : ∃ o w₀, Fine o ∧ Variable o ∧ o.dotted = false ∧ w = refer F w₀ o) :
    (meaning (w :: os) r).map (called r.steps) = some (command F w r) := by
  obtain ⟨o, w₀, ho, hv, hod, rfl⟩ := hw
  have hk : Kept (refer F w₀ o) := refer_kept F ho hv (by simp [hod])
  rw [fine_dotted F hr hd hk]
  have hb : (refer F w₀ o != []) = true := by
    obtain ⟨v, h⟩ := hk
    rw [h]; rfl
  unfold command called
  rw [← List.head?_reverse]
  match h : r.steps.reverse with
  | [] => simp [hd, hb]
  | .attr n :: rest => simp
  | .args as :: rest => simp

/-- `WITH oForm` .. `.Refresh` -/
example (F : Other) : command F "S.oform".toList ⟨true, "Refresh".toList, []⟩ = "S.oform.refresh()".toList := by
  have hf : Fine ⟨false, "oForm".toList, []⟩ :=
    ⟨⟨'o', "Form".toList, by decide, .inl (by decide), by decide⟩, ⟨'o', by decide, by decide⟩, by decide, (fun _ h => (nomatch h)), by
      rw [if_neg (by decide)]
      exact ⟨by simp, not_special_nil⟩⟩
  have hg : Fine ⟨true, "Refresh".toList, []⟩ :=
    ⟨⟨'R', "efresh".toList, by decide, .inl (by decide), by decide⟩, ⟨'e', by decide, by decide⟩, by decide, (fun _ h => (nomatch h)), by
      rw [if_pos rfl]
      exact not_special_one _⟩
  have ht : refer F [] ⟨false, "oForm".toList, []⟩ = "S.oform".toList := by
    have := fine_plain F [] hf rfl []
    exact (Option.some.inj (this.symm.trans (by decide)))
  have := C54_command_partial F _ [] _ hg rfl ⟨_, [], hf, fun _ => by decide, rfl, rfl⟩
  rw [ht] at this
  exact Option.some.inj (this.symm.trans (by decide))

/-- `WITH oForm` .. `.Caption = ..` .. `WITH .Grid` .. `.Column(1).Width`, `x` .. -/
def nested : List Line :=
  [.block ⟨false, "oForm".toList, []⟩
    [.store ⟨true, "Caption".toList, []⟩,
     .block ⟨true, "Grid".toList, []⟩ [.use ⟨true, "Column".toList, [.args ["1".toList], .attr "Width".toList]⟩, .use ⟨false, "x".toList, []⟩]]]

example : Clean nested ∧ NoDots nested := by
  have h1 : IsName "oForm".toList := ⟨'o', "Form".toList, by decide, .inl (by decide), by decide⟩
  have h2 : IsName "Caption".toList := ⟨'C', "aption".toList, by decide, .inl (by decide), by decide⟩
  have h3 : IsName "Grid".toList := ⟨'G', "rid".toList, by decide, .inl (by decide), by decide⟩
  have h4 : IsName "Column".toList := ⟨'C', "olumn".toList, by decide, .inl (by decide), by decide⟩
  have h5 : IsName "x".toList := ⟨'x', [], by decide, .inl (by decide), by decide⟩
  have hs : ¬ Special [.attr "Column".toList, .args ["1".toList], .attr "Width".toList] := by
    rintro ⟨pre, m, as, h, -⟩
    have := congrArg List.getLast? h
    simp at this
  refine ⟨?_, by simp [nested, NoDots]⟩
  simp only [nested, Clean, Fine, Whole, Variable, NoKeywords, NoDots, h1, h2, h3, h4, h5, hs, not_special_one, not_special_nil, true_and,
    and_true, not_false_eq_true, List.getLast?_nil, if_true, List.not_mem_nil, false_implies, implies_true, List.mem_cons, Step.attr.injEq,
    reduceCtorEq, or_false, false_or, forall_eq, Bool.true_eq_false, Bool.false_eq_true, if_false, ne_eq, forall_const]
  refine ⟨⟨⟨'o', by decide, by decide⟩, by decide⟩, by decide, ⟨⟨'C', by decide, by decide⟩, by decide⟩,
    ⟨⟨'G', by decide, by decide⟩, by decide⟩, ⟨⟨'C', by decide, by decide⟩, by decide, by decide⟩, ⟨'x', by decide, by decide⟩, by decide⟩

example (F : Other) : (convLines F [] nested).1 = ["S.oform.caption".toList, "S.oform.grid.column(1).width".toList, "S.x".toList] := rfl

/-- C54 does not hold behind the end of a nested block: there a leading dot is dropped,
whatever the objects and names are. -/
theorem C54_with_fails (F : Other) (o i n : Str) (ho : IsName o) (hl : HasLetter o) (hk : lower o ∉ keywords)
    (ht : lower o ≠ "this".toList ∧ lower o ≠ "thisform".toList) (hi : IsName i) (hil : HasLetter i) (hik : lower i ∉ keywords)
    (hn : IsName n) (hnl : HasLetter n) (hnk : lower n ∉ keywords) (hnt : lower n ≠ "this".toList ∧ lower n ≠ "thisform".toList) :
    linesMean [] [.block ⟨false, o, []⟩ [.block ⟨false, i, []⟩ [], .use ⟨true, n, []⟩]] = some ["S.".toList ++ lower o ++ '.' :: lower n] ∧
    (convLines F [] [.block ⟨false, o, []⟩ [.block ⟨false, i, []⟩ [], .use ⟨true, n, []⟩]]).1 = ["S.".toList ++ lower n] := by
  have hr : root o = some ("S.".toList ++ lower o) := by unfold root; rw [if_neg ht.1, if_neg ht.2, if_neg hk]
  have hir : ∃ t, root i = some t := ⟨_, root_text hi hil hik⟩
  obtain ⟨t, hir⟩ := hir
  have hnr : root n = some ("S.".toList ++ lower n) := by unfold root; rw [if_neg hnt.1, if_neg hnt.2, if_neg hnk]
  constructor
  · simp [linesMean, lineMeans, meaning, hr, hir, path, stepCode, hnk]
  · simp only [convLines, convLine, List.append_nil, List.nil_append]
    have h2 : refer F [] ⟨true, n, []⟩ = rootText (identifier n) := by
      simp [refer, createIdAttr, createRev, stepsText]
    rw [h2]
    have := root_text hn hnl hnk
    rw [hnr] at this
    rw [← Option.some.inj this]

example (F : Other) : (convLines F [] [.block ⟨false, "oForm".toList, []⟩ [.block ⟨false, "x".toList, []⟩ [], .use ⟨true, "Caption".toList, []⟩]]).1 =
    ["S.caption".toList] := rfl

/-- C54 for a block for THIS or THISFORM or a part of them: members are reached exactly if there is a capital
letter in the text of the object, which is only so if it has arguments. -/
theorem C54_this_iff (F : Other) (o : Ref) (n : Str) (ho : Fine o) (hd : o.dotted = false)
    (ht : lower o.first = "this".toList ∨ lower o.first = "thisform".toList) (hnk : lower n ∉ keywords) :
    linesMean [] [.block o [.use ⟨true, n, []⟩]] = some (convLines F [] [.block o [.use ⟨true, n, []⟩]]).1 ↔
      (refer F [] o).any Char.isUpper = true := by
  have hm := fine_plain F [] ho hd []
  obtain ⟨v, hv⟩ := self_text F [] ho hd ht
  have hne : (refer F [] o != []) = true := by rw [hv]; rfl
  have hspec : linesMean [] [.block o [.use ⟨true, n, []⟩]] = some [refer F [] o ++ '.' :: lower n] := by
    have h1 : meaning [refer F [] o] ⟨true, n, []⟩ = some (refer F [] o ++ '.' :: lower n) := by simp [meaning, path, stepCode, hnk]
    simp only [linesMean, lineMeans, hm, h1, Option.bind_some, Option.map_some, List.append_nil]
  have hconv : (convLines F [] [.block o [.use ⟨true, n, []⟩]]).1 = [rootText (refer F [] o) ++ '.' :: lower n] := by
    simp only [convLines, convLine, List.append_nil]
    have : refer F (refer F [] o) ⟨true, n, []⟩ = rootText (refer F [] o) ++ '.' :: lower n := by
      rw [refer]
      simp only [hne, Bool.and_self, if_true, List.map_nil]
      rw [identifier_lower hnk]
      simp [createIdAttr, createRev, stepsText, stepText]
    rw [this]
  rw [hspec, hconv, Option.some.injEq, List.cons.injEq, and_iff_left rfl, List.append_cancel_right_eq]
  have hlow : (refer F [] o).any Char.isLower = true := by rw [hv]; simp
  unfold rootText islower
  rw [hlow, Bool.true_and]
  cases hu : (refer F [] o).any Char.isUpper with
  | true => simp
  | false =>
    simp only [Bool.not_false, if_true, Bool.false_eq_true, iff_false]
    intro h
    exact access_longer (refer F [] o) v hv h.symm

/-- A block for `THIS.Columns(i)` where `i` is a variable, so that its code is `S.i`. -/
def column : Ref := ⟨false, "THIS".toList, [.attr "Columns".toList, .args ["S.i".toList]]⟩

theorem column_fine : Fine column := by
  have h1 : IsName "THIS".toList := ⟨'T', "HIS".toList, by decide, .inl (by decide), by decide⟩
  refine ⟨h1, ⟨'T', by decide, by decide⟩, by decide, ?_, ?_⟩
  · intro n hn
    simp only [column, List.mem_cons, Step.attr.injEq, reduceCtorEq, List.not_mem_nil, or_false] at hn
    subst hn
    decide
  · rw [if_neg (by decide)]
    refine ⟨fun as h => (by simp [column] at h), ?_⟩
    rintro ⟨pre, m, as, h, hm⟩
    have h' := congrArg List.reverse h
    simp only [column, List.reverse_cons, List.reverse_nil, List.nil_append, List.cons_append, List.reverse_append, List.cons.injEq,
      Step.args.injEq, Step.attr.injEq] at h'
    obtain ⟨h1, h2, -⟩ := h'
    rw [← h2] at hm
    rcases hm with ⟨h, -⟩ | ⟨h | h, -⟩ <;> exact absurd h (by decide)

example (F : Other) : linesMean [] [.block column [.use ⟨true, "Width".toList, []⟩]] = some (convLines F [] [.block column [.use ⟨true, "Width".toList, []⟩]]).1 :=
  (C54_this_iff F column "Width".toList column_fine rfl (.inl (by decide)) (by decide)).mpr (by rfl)

example (F : Other) : linesMean [] [.block column [.use ⟨true, "Width".toList, []⟩]] = some ["self.columns(S.i).width".toList] ∧
    (convLines F [] [.block column [.use ⟨true, "Width".toList, []⟩]]).1 = ["self.columns(S.i).width".toList] := ⟨rfl, rfl⟩

/-- C54 never holds in a block for THIS or THISFORM: its members are looked for in a variable. -/
theorem C54_this_fails (F : Other) (o n : Str) (ht : lower o = "this".toList ∨ lower o = "thisform".toList)
    (ho : IsName o) (hnk : lower n ∉ keywords) :
    linesMean [] [.block ⟨false, o, []⟩ [.use ⟨true, n, []⟩]] ≠ some (convLines F [] [.block ⟨false, o, []⟩ [.use ⟨true, n, []⟩]]).1 := by
  have hk : lower o ∉ keywords := by rcases ht with h | h <;> rw [h] <;> decide
  have hl : HasLetter o := (islower_iff ho).mp (by
    show islower (lower o) = true
    rcases ht with h | h <;> rw [h] <;> decide)
  have hf : Fine ⟨false, o, []⟩ := by
    refine ⟨ho, hl, hk, fun n h => (by cases h), ?_⟩
    rw [if_neg Bool.false_ne_true]
    exact ⟨fun as h => (nomatch h), not_special_nil⟩
  intro h
  have := (C54_this_iff F ⟨false, o, []⟩ n hf rfl ht hnk).mp h
  have ht' : refer F [] ⟨false, o, []⟩ = "self".toList ∨ refer F [] ⟨false, o, []⟩ = "self.parentform".toList := by
    have hr := root_text ho hl hk
    rw [refer_plain F [] ⟨false, o, []⟩ rfl (fun as h => nomatch h) not_special_nil]
    unfold root at hr
    rcases ht with h | h
    · rw [if_pos h] at hr; left; rw [← Option.some.inj hr]; rfl
    · rw [if_neg (by rw [h]; decide), if_pos h] at hr; right; rw [← Option.some.inj hr]; rfl
  rcases ht' with h | h <;> rw [h] at this <;> revert this <;> decide

example (F : Other) : linesMean [] [.block ⟨false, "THISFORM".toList, []⟩ [.use ⟨true, "Caption".toList, []⟩]] = some ["self.parentform.caption".toList] ∧
    (convLines F [] [.block ⟨false, "THISFORM".toList, []⟩ [.use ⟨true, "Caption".toList, []⟩]]).1 = ["S[self.parentform].caption".toList] :=
  ⟨rfl, rfl⟩

/-- C54 does not hold for an assignment to an element of an array that is a member: the leading dot is ignored, and
the array is looked for among the variables. -/
theorem C54_element_fails (F : Other) (o n : Str) (as : List Str) (ho : IsName o) (hl : HasLetter o) (hk : lower o ∉ keywords)
    (ht : lower o ≠ "this".toList ∧ lower o ≠ "thisform".toList)
    (hn : IsName n) (hnl : HasLetter n) (hnk : lower n ∉ keywords) (hnt : lower n ≠ "this".toList ∧ lower n ≠ "thisform".toList) :
    linesMean [] [.block ⟨false, o, []⟩ [.store ⟨true, n, [.args as]⟩]] =
      some ["S.".toList ++ lower o ++ '.' :: lower n ++ '[' :: [','].intercalate as ++ [']']] ∧
    (convLines F [] [.block ⟨false, o, []⟩ [.store ⟨true, n, [.args as]⟩]]).1 =
      ["S.".toList ++ lower n ++ '[' :: [','].intercalate as ++ [']']] := by
  have hr : root o = some ("S.".toList ++ lower o) := by unfold root; rw [if_neg ht.1, if_neg ht.2, if_neg hk]
  have hnr : root n = some ("S.".toList ++ lower n) := by unfold root; rw [if_neg hnt.1, if_neg hnt.2, if_neg hnk]
  constructor
  · simp [linesMean, lineMeans, targetMeaning, meaning, hr, path, stepCode, hnk]
  · have h2 : createIdAttr F (identifier n) [] = rootText (identifier n) := by simp [createIdAttr, createRev, stepsText]
    have := root_text hn hnl hnk
    rw [hnr] at this
    simp only [convLines, convLine, List.append_nil, target, List.reverse_cons, List.reverse_nil, List.nil_append, List.map_nil, h2]
    rw [← Option.some.inj this]

example (F : Other) : linesMean [] [.block ⟨false, "oList".toList, []⟩ [.store ⟨true, "Items".toList, [.args ["2".toList]]⟩]] =
      some ["S.olist.items[2]".toList] ∧
    (convLines F [] [.block ⟨false, "oList".toList, []⟩ [.store ⟨true, "Items".toList, [.args ["2".toList]]⟩]]).1 = ["S.items[2]".toList] :=
  ⟨rfl, rfl⟩

end Props
