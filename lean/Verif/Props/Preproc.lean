import Verif.Lemmas.Preproc
/-!
# Preprocessor properties: C35, C36, C37, C66, C67, C68
-/
namespace Props
open Preproc PreprocSpec Py PreprocAux

namespace PreprocEx

def lowAscii (s : Str) : Str := s.map Char.toLower
def tok (s : String) : Tok := ⟨.other, s.toList⟩
def ws : Tok := ⟨.ws, [' ']⟩
def com (s : String) : Tok := ⟨.comment, s.toList⟩

/-- `#IF` expressions: only `.t.` and `.f.`; two headers. -/
def env : Env where
  low := lowAscii
  evalIf := fun s => if s = ".t.".toList then .ok true else if s = ".f.".toList then .ok false else .error .evalError
  file := fun f =>
    if f = "a.h".toList then some [.define "Max".toList [ws, tok "10", ws, com "&& limit"], .text [tok "y"]]
    else if f = "guard.h".toList then some [.ifDef "debug".toList [.text [tok "trace"]] none]
    else if f = "undef.h".toList then some [.undefine "debug".toList]
    else none

end PreprocEx
open PreprocEx

/-! ## C35 — #DEFINE substitution -/

namespace PreprocAux

theorem freshLines_append {E : Env} {inc : Str → Except Err (Mem × List Tok)} (a b : List Line) (m m1 : Mem)
    (o : List Tok) (h : freshLines E inc (a ++ b) m = .ok (m1, o)) :
    ∃ ma oa ob, freshLines E inc a m = .ok (ma, oa) ∧ freshLines E inc b ma = .ok (m1, ob) ∧ o = oa ++ ob := by
  induction a generalizing m o with
  | nil => exact ⟨m, [], o, rfl, h, rfl⟩
  | cons l a ih =>
    rw [List.cons_append, freshLines] at h
    cases h1 : freshLine E inc l m with
    | error e => rw [h1] at h; cases h
    | ok x =>
      obtain ⟨mx, ox⟩ := x
      rw [h1] at h
      cases h2 : freshLines E inc (a ++ b) mx with
      | error e => simp [h2] at h
      | ok y =>
        obtain ⟨my, oy⟩ := y
        simp only [h2, Except.ok.injEq, Prod.mk.injEq] at h
        obtain ⟨rfl, rfl⟩ := h
        obtain ⟨ma, oa, ob, e1, e2, rfl⟩ := ih mx oy h2
        exact ⟨ma, ox ++ oa, ob, by rw [freshLines, h1]; simp only [e1], e2, by simp⟩

theorem history_run {E : Env} {inc : Str → Except Err (Mem × List Tok)} {ls : List Line} {h : List Event}
    (hh : HistoryOf E ls h) (m : Mem) (o : List Tok) (hr : freshLines E inc ls [] = .ok (m, o)) :
    o = [] ∧ ∀ x, Dict.get m x = current h x := by
  induction hh generalizing m o with
  | nil => simp [freshLines] at hr; obtain ⟨rfl, rfl⟩ := hr; simp [current, Dict.get]
  | @define ls h n t b _ hb ih =>
    obtain ⟨ma, oa, ob, e1, e2, rfl⟩ := freshLines_append _ _ _ _ _ hr
    obtain ⟨rfl, hag⟩ := ih ma oa e1
    simp [freshLines, freshLine] at e2
    obtain ⟨rfl, rfl⟩ := e2
    refine ⟨rfl, fun x => ?_⟩
    rw [Dict.get_set, isBody_unique hb]
    by_cases hx : E.low n = x
    · simp [current, hx]
    · simp [current, hx, Ne.symm hx, hag x]
  | @undefine ls h n _ ih =>
    obtain ⟨ma, oa, ob, e1, e2, rfl⟩ := freshLines_append _ _ _ _ _ hr
    obtain ⟨rfl, hag⟩ := ih ma oa e1
    rw [freshLines, freshLine] at e2
    by_cases hn : Dict.has ma (E.low n) = true
    · rw [if_pos hn] at e2
      simp [freshLines] at e2
      obtain ⟨rfl, rfl⟩ := e2
      refine ⟨rfl, fun x => ?_⟩
      rw [Dict.get_del]
      by_cases hx : E.low n = x
      · simp [current, hx]
      · simp [current, hx, Ne.symm hx, hag x]
    · rw [if_neg hn] at e2; cases e2

end PreprocAux

/-- After any history of `#DEFINE` and `#UNDEFINE` lines a line is output with
every token whose lower-cased text is currently defined replaced by its
replacement, once; comments go to the front as comment lines; every other token
stays, in order. -/
theorem C35_substitution (E : Env) (n : Nat) (dirs : List Line) (h : List Event) (toks : List Tok)
    (hh : HistoryOf E dirs h) (c : Cache) (m : Mem) (o : List Tok)
    (hr : preprocessCode E n [] (dirs ++ [.text toks]) = .ok (c, m, o)) :
    o = expand E.low (current h) toks := by
  have hcoh : Coherent E [] := fun f r h => by simp [Dict.get] at h
  obtain ⟨_, k, hk⟩ := fwdLines (incFwd_file n) _ [] c [] (m, o) hcoh hr
  obtain ⟨ma, oa, ob, e1, e2, rfl⟩ := freshLines_append _ _ _ _ _ hk
  obtain ⟨rfl, hag⟩ := history_run hh ma oa e1
  simp [freshLines, freshLine] at e2
  rw [← e2.2]
  exact replaceTokens_eq E.low ma (current h) toks (fun t _ => hag _)

example : HistoryOf env [.define "Limit".toList [ws, tok "3", ws, com "&& three"], .define "x".toList [ws, tok "9"], .undefine "X".toList]
      [.undef "x".toList, .def_ "x".toList [tok "9"], .def_ "limit".toList [tok "3"]] ∧
    preprocessCode env 0 [] ([.define "Limit".toList [ws, tok "3", ws, com "&& three"], .define "x".toList [ws, tok "9"], .undefine "X".toList] ++
      [.text [tok "a", tok "=", tok "LIMIT", tok "+", tok "x", ws, com "&& sum", tok "\n"]]) =
    .ok ([], [("limit".toList, [tok "3"])],
      [⟨.comment, "* sum\n".toList⟩, tok "a", tok "=", tok "3", tok "+", tok "x", ws, tok "\n"]) := by
  refine ⟨?_, by decide +kernel⟩
  refine .undefine (.define (.define .nil ?_ : HistoryOf env ([] ++ [_]) _) ?_ : HistoryOf env ([_] ++ [_]) _)
  · exact isBody_trim [ws, tok "3", ws, com "&& three"]
  · exact isBody_trim [ws, tok "9"]

/-- Behind any history of `#DEFINE` and `#UNDEFINE` lines an `#UNDEFINE` of a name that is not defined at that point is an
error, whatever follows: the file is not converted. -/
theorem C35_undefine_unknown_fails (E : Env) (n : Nat) (dirs : List Line) (h : List Event) (hh : HistoryOf E dirs h)
    (name : Str) (hn : current h (E.low name) = none) (rest : List Line) :
    ¬ ∃ r, preprocessCode E n [] (dirs ++ .undefine name :: rest) = .ok r := by
  rintro ⟨⟨c, m, o⟩, hr⟩
  have hcoh : Coherent E [] := fun f r h => by simp [Dict.get] at h
  obtain ⟨_, k, hk⟩ := fwdLines (incFwd_file n) _ [] c [] (m, o) hcoh hr
  obtain ⟨ma, oa, ob, e1, e2, rfl⟩ := freshLines_append _ _ _ _ _ hk
  obtain ⟨rfl, hag⟩ := history_run hh ma oa e1
  rw [freshLines, freshLine] at e2
  have : Dict.has ma (E.low name) = false := by
    have := hag (E.low name)
    rw [hn] at this
    simp only [Dict.has, this]
    rfl
  rw [this] at e2
  simp at e2

/-- The second `#UNDEFINE` of the same name. -/
example : HistoryOf env [.define "x".toList [ws, tok "9"], .undefine "X".toList] [.undef "x".toList, .def_ "x".toList [tok "9"]] ∧
    ¬ ∃ r, preprocessCode env 0 [] ([.define "x".toList [ws, tok "9"], .undefine "X".toList] ++ .undefine "x".toList :: [.text []]) = .ok r := by
  have h : HistoryOf env [.define "x".toList [ws, tok "9"], .undefine "X".toList] [.undef "x".toList, .def_ "x".toList [tok "9"]] :=
    .undefine (.define .nil (isBody_trim [ws, tok "9"]) : HistoryOf env ([] ++ [_]) _)
  exact ⟨h, C35_undefine_unknown_fails env 0 _ _ h "x".toList (by decide +kernel) _⟩

/-- A directive other than `#IF`, `#IFDEF`, `#ELSE`, `#ENDIF`, `#DEFINE`,
`#UNDEFINE` and `#INCLUDE` stops the conversion wherever it stands. -/
theorem C35_other_directive_fails (E : Env) (n : Nat) (c : Cache) (a b : List Line) :
    ∃ e, preprocessCode E n c (a ++ .junk :: b) = .error e := by
  have key : ∀ inc (a : List Line) c m, ∃ e, visitLines E inc (a ++ .junk :: b) c m = .error e := by
    intro inc a
    induction a with
    | nil => intro c m; exact ⟨.typeError, by simp [visitLines, visitLine]⟩
    | cons l a ih =>
      intro c m
      rw [List.cons_append, visitLines]
      cases visitLine E inc l c m with
      | error e => exact ⟨e, rfl⟩
      | ok x =>
        obtain ⟨e, he⟩ := ih x.1 x.2.1
        exact ⟨e, by simp only [he]⟩
  exact key _ a c []

/-! ## C36 — conditional compilation -/

namespace PreprocAux
mutual
/-- No `#INCLUDE` anywhere in the line. -/
def noInclLine : Line → Prop
  | .incl _ => False
  | .ifExpr _ body els => noIncl body ∧ noInclOpt els
  | .ifDef _ body els => noIncl body ∧ noInclOpt els
  | _ => True
def noInclOpt : Option (List Line) → Prop
  | none => True
  | some ls => noIncl ls
def noIncl : List Line → Prop
  | [] => True
  | l :: ls => noInclLine l ∧ noIncl ls
end

mutual
theorem self_noInclLine {E : Env} {inc : Str → Except Err (Mem × List Tok)} {si : (Str → Bool) → Str → Prop}
    (l : Line) (m : Mem) (h : noInclLine l) : selfLine E inc si (fun _ => false) l m := by
  match l with
  | .text t => intro _ _ _; rfl
  | .define _ _ => trivial
  | .undefine _ => rfl
  | .junk => trivial
  | .incl _ => exact h.elim
  | .ifExpr _ body els =>
    exact ⟨fun _ _ _ => rfl, fun _ => self_noIncl body m h.1, fun _ => self_noInclOpt els m h.2⟩
  | .ifDef _ body els =>
    exact ⟨fun _ => rfl, fun _ => self_noIncl body m h.1, fun _ => self_noInclOpt els m h.2⟩
theorem self_noInclOpt {E : Env} {inc : Str → Except Err (Mem × List Tok)} {si : (Str → Bool) → Str → Prop}
    (els : Option (List Line)) (m : Mem) (h : noInclOpt els) : selfElse E inc si (fun _ => false) els m := by
  match els with
  | none => trivial
  | some ls => exact self_noIncl ls m h
theorem self_noIncl {E : Env} {inc : Str → Except Err (Mem × List Tok)} {si : (Str → Bool) → Str → Prop}
    (ls : List Line) (m : Mem) (h : noIncl ls) : selfLines E inc si (fun _ => false) ls m := by
  match ls with
  | [] => trivial
  | l :: ls => exact ⟨self_noInclLine l m h.1, fun m1 _ _ => self_noIncl ls m1 h.2⟩
end

theorem textual {E : Env} (n : Nat) (ls : List Line) (m : Mem) (o : List Tok)
    (hr : freshCode E n ls = .ok (m, o)) (hs : SelfContained E n ls) :
    ∃ h, Runs E (flats ls) [] [] h o ∧ ∀ x, current h x = Dict.get m x := by
  obtain ⟨h1, hag, hrun⟩ := runLines (incOK_file n) (fun _ => none) (fun _ => false) (fun _ => rfl) ls [] m o []
    hr (fun x => by simp [current, Dict.get]) hs
  refine ⟨h1, ?_, fun x => by rw [hag x]; cases Dict.get m x <;> rfl⟩
  have := hrun [] rfl [] h1 [] .nil
  simpa using this

end PreprocAux

/-- For conditional blocks nested to any depth the output and the definitions in
force are those of the line machine: lines of unselected branches contribute
nothing and their `#DEFINE`s have no effect.  The machine has only one possible
outcome. -/
theorem C36_conditional (E : Env) (n : Nat) (ls : List Line) (c : Cache) (m : Mem) (o : List Tok)
    (hinc : noIncl ls) (hr : preprocessCode E n [] ls = .ok (c, m, o)) :
    ∃ h, Runs E (flats ls) [] [] h o ∧ (∀ x, current h x = Dict.get m x) ∧
      ∀ h' o', Runs E (flats ls) [] [] h' o' → h' = h ∧ o' = o := by
  have hcoh : Coherent E [] := fun f r h => by simp [Dict.get] at h
  obtain ⟨_, k, hk⟩ := fwdLines (incFwd_file n) _ [] c [] (m, o) hcoh hr
  obtain ⟨h, h1, h2⟩ := textual k ls m o hk (self_noIncl ls [] hinc)
  exact ⟨h, h1, h2, fun h' o' hr' => runs_det hr' h1⟩

example : noIncl [.ifExpr [tok ".f."] [.define "a".toList [tok "1"], .text [tok "no"]]
        (some [.define "b".toList [tok "2"], .ifDef "A".toList [.text [tok "a"]] (some [.text [tok "B"]])]),
      .text [tok "a"]] ∧
    preprocessCode env 3 [] [.ifExpr [tok ".f."] [.define "a".toList [tok "1"], .text [tok "no"]]
        (some [.define "b".toList [tok "2"], .ifDef "A".toList [.text [tok "a"]] (some [.text [tok "B"]])]),
      .text [tok "a"]] = .ok ([], [("b".toList, [tok "2"])], [tok "2", tok "a"]) :=
  ⟨by simp [noIncl, noInclLine, noInclOpt], by decide +kernel⟩

/-! ## C37 — #INCLUDE -/

/-- The include cache is invisible: with any cache of headers preprocessed
before, a program gives the same tokens and definitions as with an empty one
that preprocesses every header afresh, and the cache stays of that kind.  So
including a header again has the same effect as the first time. -/
theorem C37_cache_invisible (E : Env) (n : Nat) (ls : List Line) (c c' : Cache) (m : Mem) (o : List Tok)
    (hc : Coherent E c) (hr : preprocessCode E n c ls = .ok (c', m, o)) :
    Coherent E c' ∧ ∃ k, freshCode E k ls = .ok (m, o) :=
  fwdLines (incFwd_file n) ls c c' [] (m, o) hc hr

/-- The converse: whatever preprocessing without a cache gives, the code gives
with any cache of preprocessed headers. -/
theorem C37_cache_complete (E : Env) (n : Nat) (ls : List Line) (c : Cache) (m : Mem) (o : List Tok)
    (hc : Coherent E c) (hr : freshCode E n ls = .ok (m, o)) :
    ∃ c', preprocessCode E n c ls = .ok (c', m, o) ∧ Coherent E c' :=
  bwdLines (incBwd_file n) ls c [] (m, o) hc hr

example : Coherent env [("a.h".toList, ([("max".toList, [tok "10"])], [tok "y"]))] ∧
    preprocessCode env 2 [("a.h".toList, ([("max".toList, [tok "10"])], [tok "y"]))] [.incl "a.h".toList, .text [tok "MAX"]] =
      .ok ([("a.h".toList, ([("max".toList, [tok "10"])], [tok "y"]))], [("max".toList, [tok "10"])], [tok "y", tok "10"]) ∧
    preprocessCode env 2 [] [.incl "a.h".toList, .text [tok "MAX"]] =
      .ok ([("a.h".toList, ([("max".toList, [tok "10"])], [tok "y"]))], [("max".toList, [tok "10"])], [tok "y", tok "10"]) := by
  refine ⟨fun f r h => ?_, by decide +kernel, by decide +kernel⟩
  rw [Dict.get] at h
  by_cases hf : "a.h".toList = f
  · rw [if_pos hf] at h
    refine ⟨1, ?_⟩
    rw [← hf, ← Option.some.inj h]
    decide +kernel
  · rw [if_neg hf] at h; cases h

/-- Full statement: an `#INCLUDE` has the effect of the lines of the header
standing in its place.  Proved for programs whose headers are self-contained
where they are included; missing: headers that refer to names defined only by
the including file (see `C37_outer_definition_fails`). -/
theorem C37_textual_partial (E : Env) (n : Nat) (ls : List Line) (c : Cache) (m : Mem) (o : List Tok)
    (hs : ∀ k, SelfContained E k ls) (hr : preprocessCode E n [] ls = .ok (c, m, o)) :
    ∃ h, Runs E (flats ls) [] [] h o ∧ (∀ x, current h x = Dict.get m x) ∧
      ∀ h' o', Runs E (flats ls) [] [] h' o' → h' = h ∧ o' = o := by
  have hcoh : Coherent E [] := fun f r h => by simp [Dict.get] at h
  obtain ⟨_, k, hk⟩ := fwdLines (incFwd_file n) _ [] c [] (m, o) hcoh hr
  obtain ⟨h, h1, h2⟩ := textual k ls m o hk (hs k)
  exact ⟨h, h1, h2, fun h' o' hr' => runs_det hr' h1⟩

example : ∀ k, SelfContained env k [.define "z".toList [tok "5"], .incl "a.h".toList, .text [tok "z", tok "max"]] := by
  intro k
  refine ⟨trivial, fun m1 t1 h => ⟨?_, fun m2 t2 h2 => ⟨fun t _ _ => rfl, fun _ _ _ => trivial⟩⟩⟩
  simp [freshLine] at h
  obtain ⟨rfl, rfl⟩ := h
  cases k with
  | zero => trivial
  | succ k =>
    intro ls hls
    have : ls = [.define "Max".toList [ws, tok "10", ws, com "&& limit"], .text [tok "y"]] := by
      have he : env.file "a.h".toList = some [.define "Max".toList [ws, tok "10", ws, com "&& limit"], .text [tok "y"]] := rfl
      rw [he] at hls; cases hls; rfl
    subst this
    refine ⟨trivial, fun m1 t1 h => ⟨fun t ht _ => ?_, fun _ _ _ => trivial⟩⟩
    simp at ht
    subst ht
    decide +kernel

/-- A header does not see what the including file defined before: for every header whose line is
guarded by `#IFDEF` of a name the including file has just defined, the line is dropped, while textual
inclusion keeps it. -/
theorem C37_outer_definition_fails (E : Env) (n : Nat) (x f : Str) (b t : List Tok)
    (hf : E.file f = some [.ifDef x [.text t] none]) :
    (∃ c m, preprocessCode E (n + 1) [] [.define x b, .incl f] = .ok (c, m, [])) ∧
    (∀ h o, Runs E (flats [.define x b, .incl f]) [] [] h o →
      ∃ b', IsBody b b' ∧ o = expand E.low (current [.def_ (E.low x) b']) t) ∧
    ∃ h o, Runs E (flats [.define x b, .incl f]) [] [] h o := by
  have key : Runs E (flats [.define x b, .incl f]) [] [] [.def_ (E.low x) (trimDefine b)]
      (expand E.low (current [.def_ (E.low x) (trimDefine b)]) t ++ []) := by
    refine .define rfl (isBody_trim b) ?_
    refine .incl rfl hf ?_
    refine .ifdefLive rfl ?_
    refine .text (o := []) (by simp [live, current]) (.endif .nil)
  refine ⟨⟨[(f, ([], []))], [(E.low x, trimDefine b)], ?_⟩, fun h o hr => ?_, _, _, key⟩
  · simp [preprocessCode, visitLines, visitLine, preprocessFile, hf, Dict.get, Dict.has, visitElse, Dict.set,
      Dict.update]
  · have := (runs_det hr key).2
    exact ⟨_, isBody_trim b, by rw [this, List.append_nil]⟩

example : expand env.low (current [.def_ (env.low "debug".toList) [tok "1"]]) [tok "trace"] = [tok "trace"] ∧
    env.file "guard.h".toList = some [.ifDef "debug".toList [.text [tok "trace"]] none] ∧
    (∃ c m, preprocessCode env 2 [] [.define "debug".toList [tok "1"], .incl "guard.h".toList] = .ok (c, m, [])) :=
  ⟨by decide +kernel, rfl, [("guard.h".toList, ([], []))], [("debug".toList, [tok "1"])], by decide +kernel⟩

/-- Every header that begins by undefining a name stops the conversion, whatever the including
file has defined before. -/
theorem C37_outer_undefine_fails (E : Env) (n : Nat) (x f : Str) (pre rest post : List Line)
    (c : Cache) (m : Mem) (o : List Tok) (hpre : preprocessCode E (n + 1) [] pre = .ok (c, m, o))
    (hc : Dict.get c f = none) (hf : E.file f = some (.undefine x :: rest)) :
    preprocessCode E (n + 1) [] (pre ++ .incl f :: post) = .error .keyError := by
  have key : ∀ pre c0 m0 o, visitLines E (preprocessFile E (n + 1)) pre c0 m0 = .ok (c, m, o) →
      visitLines E (preprocessFile E (n + 1)) (pre ++ .incl f :: post) c0 m0 = .error .keyError := by
    intro pre
    induction pre with
    | nil =>
      intro c0 m0 o h
      simp only [visitLines, Except.ok.injEq, Prod.mk.injEq] at h
      obtain ⟨rfl, rfl, rfl⟩ := h
      simp [visitLines, visitLine, hc, preprocessFile, hf, Dict.has]
    | cons l ls ih =>
      intro c0 m0 o h
      rw [List.cons_append, visitLines]
      rw [visitLines] at h
      cases h1 : visitLine E (preprocessFile E (n + 1)) l c0 m0 with
      | error e => rw [h1] at h; cases h
      | ok r =>
        obtain ⟨c1, m1, t1⟩ := r
        rw [h1] at h
        simp only at h ⊢
        cases h2 : visitLines E (preprocessFile E (n + 1)) ls c1 m1 with
        | error e => rw [h2] at h; cases h
        | ok r =>
          obtain ⟨c2, m2, t2⟩ := r
          rw [h2] at h
          simp only [Except.ok.injEq, Prod.mk.injEq] at h
          obtain ⟨rfl, rfl, -⟩ := h
          rw [ih c1 m1 t2 h2]
  exact key pre [] [] o hpre

example : env.file "undef.h".toList = some [.undefine "debug".toList] ∧
    (∃ m o, preprocessCode env 2 [] [.define "debug".toList [tok "1"]] = .ok ([], m, o)) ∧
    preprocessCode env 2 [] [.define "debug".toList [tok "1"], .incl "undef.h".toList] = .error .keyError :=
  ⟨rfl, ⟨_, _, rfl⟩, by decide +kernel⟩

/-! ## C66 — constants defined in terms of constants -/

/-- Full statement: a line is output with its constants fully replaced, also
when the replacement of a constant uses another constant.  Proved when no
replacement contains a defined name; missing: the others
(`C66_nested_constant_fails`). -/
theorem C66_full_replacement_partial (E : Env) (n : Nat) (dirs : List Line) (h : List Event) (toks : List Tok)
    (hh : HistoryOf E dirs h) (hcom : ∀ t ∈ toks, t.kind ≠ .comment)
    (hflat : ∀ x b, current h x = some b → ∀ t ∈ b, current h (E.low t.text) = none)
    (c : Cache) (m : Mem) (o : List Tok)
    (hr : preprocessCode E n [] (dirs ++ [.text toks]) = .ok (c, m, o)) :
    Full E.low (current h) toks o := by
  rw [C35_substitution E n dirs h toks hh c m o hr]
  have hkeep : ∀ b : List Tok, (∀ t ∈ b, current h (E.low t.text) = none) → Full E.low (current h) b b := by
    intro b
    induction b with
    | nil => intro _; exact .nil
    | cons t b ih =>
      intro hb
      exact .keep (hb t List.mem_cons_self) (ih (fun t' ht => hb t' (List.mem_cons_of_mem _ ht)))
  unfold expand
  have hf : toks.filter (fun t => t.kind == .comment && (current h (E.low t.text)).isNone) = [] := by
    rw [List.filter_eq_nil_iff]
    intro t ht
    have := hcom t ht
    simp [this]
  rw [hf]
  simp only [List.map_nil, List.nil_append]
  clear hf hr
  induction toks with
  | nil => exact .nil
  | cons t ts ih =>
    have hk := hcom t List.mem_cons_self
    have ih := ih (fun t' ht => hcom t' (List.mem_cons_of_mem _ ht))
    rw [List.flatMap_cons]
    cases hc : current h (E.low t.text) with
    | some b => exact .repl hc (hkeep b (hflat _ b hc)) ih
    | none =>
      have : (t.kind == Kind.comment) = false := by simp [hk]
      simp only [this, Bool.false_eq_true, if_false]
      exact .keep hc ih

example : preprocessCode env 0 [] ([.define "lim".toList [tok "3"]] ++ [.text [tok "x", tok "LIM"]]) =
    .ok ([], [("lim".toList, [tok "3"])], [tok "x", tok "3"]) ∧
    ∀ t ∈ [tok "x", tok "LIM"], t.kind ≠ .comment := by
  refine ⟨by decide +kernel, by decide⟩

namespace PreprocAux

theorem full_free {low : Str → Str} {cur : Str → Option (List Tok)} {ts o : List Tok}
    (h : Full low cur ts o) : ∀ t ∈ o, cur (low t.text) = none := by
  induction h with
  | nil => simp
  | keep hc _ ih =>
    intro t ht
    rcases List.mem_cons.mp ht with rfl | ht
    · exact hc
    · exact ih t ht
  | repl _ _ _ ih1 ih2 =>
    intro t ht
    rcases List.mem_append.mp ht with ht | ht
    · exact ih1 t ht
    · exact ih2 t ht

end PreprocAux

/-- A constant whose replacement uses another constant is replaced only once: the inner name `u` is
left in the program, where it denotes a variable.  So the output is never the full replacement. -/
theorem C66_nested_constant_fails (E : Env) (n : Nat) (dirs : List Line) (h : List Event) (toks : List Tok)
    (hh : HistoryOf E dirs h) (t u : Tok) (ht : t ∈ toks) (b : List Tok) (hb : current h (E.low t.text) = some b)
    (hu : u ∈ b) (hd : (current h (E.low u.text)).isSome)
    (c : Cache) (m : Mem) (o : List Tok)
    (hr : preprocessCode E n [] (dirs ++ [.text toks]) = .ok (c, m, o)) :
    u ∈ o ∧ ¬ Full E.low (current h) toks o := by
  have hm : u ∈ o := by
    rw [C35_substitution E n dirs h toks hh c m o hr, expand]
    refine List.mem_append_right _ (List.mem_flatMap.mpr ⟨t, ht, ?_⟩)
    simp only [hb]
    exact hu
  refine ⟨hm, fun hf => ?_⟩
  rw [full_free hf u hm] at hd
  cases hd

example : (∃ c m, preprocessCode env 0 [] ([.define "a".toList [tok "1"], .define "b".toList [tok "a", tok "+", tok "a"]] ++
        [.text [tok "b"]]) = .ok (c, m, [tok "a", tok "+", tok "a"])) ∧
    Full env.low (current [.def_ "b".toList [tok "a", tok "+", tok "a"], .def_ "a".toList [tok "1"]]) [tok "b"]
      [tok "1", tok "+", tok "1"] := by
  refine ⟨⟨[], [("a".toList, [tok "1"]), ("b".toList, [tok "a", tok "+", tok "a"])], by decide +kernel⟩, ?_⟩
  have ha : ∀ ts o, Full env.low (current [.def_ "b".toList [tok "a", tok "+", tok "a"], .def_ "a".toList [tok "1"]]) ts o →
      Full env.low (current [.def_ "b".toList [tok "a", tok "+", tok "a"], .def_ "a".toList [tok "1"]])
        (tok "a" :: ts) (tok "1" :: o) := fun ts o h =>
    .repl (b := [tok "1"]) (ob := [tok "1"]) (by decide +kernel) (.keep (by decide +kernel) .nil) h
  exact .repl (b := [tok "a", tok "+", tok "a"]) (ob := [tok "1", tok "+", tok "1"]) (o := []) (by decide +kernel)
    (ha _ _ (.keep (by decide +kernel) (ha _ _ .nil))) .nil

/-! ## C67 — string literals are not touched by #DEFINE -/

namespace PreprocAux

theorem expand_outside (low : Str → Str) (cur : Str → Option (List Tok)) (q : Option Str) (toks : List Tok)
    (hcom : ∀ t ∈ toks, t.kind ≠ .comment)
    (hq : ∀ t ∈ toks, t.text = ['\''] ∨ t.text = ['"'] → cur (low t.text) = none)
    (hqq : ∀ x, q = some x → x = ['\''] ∨ x = ['"'])
    (hin : ∀ t ∈ inside q toks, cur (low t.text) = none) :
    (toks.flatMap (fun t =>
      match cur (low t.text) with
      | some b => b
      | none => if t.kind == Kind.comment then [] else [t])) = expandOutside low cur q toks := by
  induction toks generalizing q with
  | nil => cases q <;> rfl
  | cons t ts ih =>
    have hk : (t.kind == Kind.comment) = false := by simp [hcom t List.mem_cons_self]
    have hcom' := fun t' ht => hcom t' (List.mem_cons_of_mem t ht)
    have hq' := fun t' ht => hq t' (List.mem_cons_of_mem t ht)
    rw [List.flatMap_cons]
    cases q with
    | none =>
      rw [expandOutside]
      rw [inside] at hin
      by_cases hd : t.text = ['\''] ∨ t.text = ['"']
      · rw [if_pos hd] at hin ⊢
        rw [ih (some t.text) hcom' hq' (fun x hx => by cases hx; exact hd) hin, hq t List.mem_cons_self hd]
        simp [hk]
      · rw [if_neg hd] at hin ⊢
        rw [ih none hcom' hq' (fun x hx => by cases hx) hin]
        cases cur (low t.text) <;> simp [hk]
    | some x =>
      rw [expandOutside]
      rw [inside] at hin
      have hx := hqq x rfl
      by_cases hd : t.text = x
      · rw [if_pos hd] at hin ⊢
        rw [ih none hcom' hq' (fun x hx => by cases hx) hin, hq t List.mem_cons_self (by rw [hd]; exact hx)]
        simp [hk]
      · rw [if_neg hd] at hin ⊢
        rw [ih (some x) hcom' hq' (fun y hy => by cases hy; exact hx)
          (fun t' ht => hin t' (List.mem_cons_of_mem _ ht)), hin t List.mem_cons_self]
        simp [hk]

end PreprocAux

/-- Full statement: the contents of quoted string literals are output unchanged,
constants are replaced outside of them only.  Proved for lines in whose literals
no defined name occurs as a token; missing: the others
(`C67_literal_changed_fails`). -/
theorem C67_literals_partial (E : Env) (n : Nat) (dirs : List Line) (h : List Event) (toks : List Tok)
    (hh : HistoryOf E dirs h) (hcom : ∀ t ∈ toks, t.kind ≠ .comment)
    (hq : ∀ t ∈ toks, t.text = ['\''] ∨ t.text = ['"'] → current h (E.low t.text) = none)
    (hin : ∀ t ∈ inside none toks, current h (E.low t.text) = none)
    (c : Cache) (m : Mem) (o : List Tok)
    (hr : preprocessCode E n [] (dirs ++ [.text toks]) = .ok (c, m, o)) :
    o = expandOutside E.low (current h) none toks := by
  rw [C35_substitution E n dirs h toks hh c m o hr, expand]
  have hf : toks.filter (fun t => t.kind == .comment && (current h (E.low t.text)).isNone) = [] := by
    rw [List.filter_eq_nil_iff]
    intro t ht
    have := hcom t ht
    simp [this]
  rw [hf]
  exact expand_outside E.low (current h) none toks hcom hq (fun x hx => by cases hx) hin

example : preprocessCode env 0 [] ([.define "max".toList [tok "3"]] ++ [.text [tok "?", tok "\"", tok "min", tok "\"", tok "max"]]) =
      .ok ([], [("max".toList, [tok "3"])], [tok "?", tok "\"", tok "min", tok "\"", tok "3"]) ∧
    (∀ t ∈ inside none [tok "?", tok "\"", tok "min", tok "\"", tok "max"],
      current [.def_ "max".toList [tok "3"]] (env.low t.text) = none) := by
  refine ⟨by decide +kernel, by decide +kernel⟩

namespace PreprocAux

theorem outside_plain (low : Str → Str) (cur : Str → Option (List Tok)) (pre ts : List Tok)
    (h : ∀ t ∈ pre, t.text ≠ ['\''] ∧ t.text ≠ ['"']) :
    expandOutside low cur none (pre ++ ts) = expandOutside low cur none pre ++ expandOutside low cur none ts := by
  induction pre with
  | nil => rfl
  | cons t pre ih =>
    have ht := h t List.mem_cons_self
    rw [List.cons_append, expandOutside, expandOutside, if_neg (by simp [ht]), if_neg (by simp [ht]),
      ih (fun t' h' => h t' (List.mem_cons_of_mem _ h'))]
    cases cur (low t.text) <;> simp

theorem expand_plain (low : Str → Str) (cur : Str → Option (List Tok)) (toks : List Tok)
    (hcom : ∀ t ∈ toks, t.kind ≠ .comment) :
    expand low cur toks = toks.flatMap (fun t => match cur (low t.text) with
      | some b => b
      | none => [t]) := by
  unfold expand
  have hf : toks.filter (fun t => t.kind == .comment && (cur (low t.text)).isNone) = [] := by
    rw [List.filter_eq_nil_iff]
    intro t ht
    simp [hcom t ht]
  rw [hf, List.map_nil, List.nil_append]
  induction toks with
  | nil => rfl
  | cons t ts ih =>
    have hk : (t.kind == Kind.comment) = false := by simp [hcom t List.mem_cons_self]
    rw [List.flatMap_cons, List.flatMap_cons, ih (fun t' h' => hcom t' (List.mem_cons_of_mem _ h'))]
    · cases cur (low t.text) <;> simp [hk]
    · rw [List.filter_eq_nil_iff]
      intro t' ht'
      simp [hcom t' (List.mem_cons_of_mem _ ht')]

end PreprocAux

/-- A defined name inside a string literal is replaced as well: for every line with a literal that
consists of such a name, the text the program uses is the replacement and not the literal. -/
theorem C67_literal_changed_fails (E : Env) (n : Nat) (dirs : List Line) (h : List Event)
    (pre post : List Tok) (q t : Tok) (b : List Tok)
    (hh : HistoryOf E dirs h) (hcom : ∀ x ∈ pre ++ q :: t :: q :: post, x.kind ≠ .comment)
    (hq : q.text = ['\''] ∨ q.text = ['"']) (hqn : current h (E.low q.text) = none)
    (htq : t.text ≠ q.text)
    (hplain : ∀ t ∈ pre ++ post, t.text ≠ ['\''] ∧ t.text ≠ ['"'])
    (hb : current h (E.low t.text) = some b) (hne : b ≠ [t])
    (c : Cache) (m : Mem) (o : List Tok)
    (hr : preprocessCode E n [] (dirs ++ [.text (pre ++ q :: t :: q :: post)]) = .ok (c, m, o)) :
    ∃ l r, o = l ++ q :: b ++ q :: r ∧
      expandOutside E.low (current h) none (pre ++ q :: t :: q :: post) = l ++ q :: t :: q :: r ∧
      o ≠ expandOutside E.low (current h) none (pre ++ q :: t :: q :: post) := by
  have hcp : ∀ t ∈ pre, t.kind ≠ .comment := fun t ht => hcom t (List.mem_append_left _ ht)
  have hcq : ∀ t ∈ post, t.kind ≠ .comment := fun t ht => hcom t (by simp [ht])
  have plain : ∀ ts : List Tok, (∀ t ∈ ts, t.kind ≠ .comment) → (∀ t ∈ ts, t.text ≠ ['\''] ∧ t.text ≠ ['"']) →
      expandOutside E.low (current h) none ts = expand E.low (current h) ts := by
    intro ts h1 h2
    rw [expand_plain _ _ _ h1]
    induction ts with
    | nil => rfl
    | cons x xs ih =>
      have hx := h2 x List.mem_cons_self
      rw [expandOutside, if_neg (by simp [hx]), List.flatMap_cons, ih (fun t' h' => h1 t' (List.mem_cons_of_mem _ h'))
        (fun t' h' => h2 t' (List.mem_cons_of_mem _ h'))]
      cases current h (E.low x.text) <;> simp
  have e1 : o = expand E.low (current h) pre ++ q :: b ++ q :: expand E.low (current h) post := by
    rw [C35_substitution E n dirs h _ hh c m o hr, expand_plain _ _ _ hcom, expand_plain _ _ _ hcp, expand_plain _ _ _ hcq]
    simp [hqn, hb]
  have e2 : expandOutside E.low (current h) none (pre ++ q :: t :: q :: post) =
      expand E.low (current h) pre ++ q :: t :: q :: expand E.low (current h) post := by
    rw [outside_plain _ _ _ _ (fun t ht => hplain t (List.mem_append_left _ ht)),
      plain pre hcp (fun t ht => hplain t (List.mem_append_left _ ht)), expandOutside, if_pos hq,
      expandOutside, if_neg htq, expandOutside, if_pos rfl,
      plain post hcq (fun t ht => hplain t (List.mem_append_right _ ht))]
  refine ⟨_, _, e1, e2, fun he => hne ?_⟩
  rw [e1, e2] at he
  rw [List.append_assoc, List.append_cancel_left_eq] at he
  simp only [List.cons_append, List.cons.injEq, true_and] at he
  have : b ++ q :: expand E.low (current h) post = [t] ++ q :: expand E.low (current h) post := by simpa using he
  exact List.append_cancel_right this

example : (∃ c m, preprocessCode env 0 [] ([.define "max".toList [tok "3"]] ++ [.text [tok "?", tok "\"", tok "max", tok "\""]]) =
        .ok (c, m, [tok "?", tok "\"", tok "3", tok "\""])) ∧
      expandOutside env.low (current [.def_ "max".toList [tok "3"]]) none
          [tok "?", tok "\"", tok "max", tok "\""] = [tok "?", tok "\"", tok "max", tok "\""] :=
  ⟨⟨[], [("max".toList, [tok "3"])], by decide +kernel⟩, by decide +kernel⟩

/-! ## C68 — a comment behind a statement does not affect the statement -/

namespace PreprocAux

theorem physical_line (l rest : Str) (h : '\n' ∉ l) : physical (l ++ '\n' :: rest) = l :: physical rest := by
  induction l with
  | nil => simp [physical]
  | cons c l ih =>
    have hc : c ≠ '\n' := fun e => h (by rw [e]; exact List.mem_cons_self)
    have hl : '\n' ∉ l := fun hm => h (List.mem_cons_of_mem _ hm)
    rw [List.cons_append, physical, if_neg hc, ih hl]

theorem not_macro (l : Str) (h : '&' ∉ l) : isMacro l = false := by
  have : l.dropWhile (fun c => decide (c ≠ '&')) = [] := by
    induction l with
    | nil => rfl
    | cons c l ih =>
      have hc : c ≠ '&' := fun e => h (by rw [e]; exact List.mem_cons_self)
      rw [List.dropWhile_cons]
      simp only [hc, ne_eq, not_false_eq_true, decide_true, if_true]
      exact ih (fun hm => h (List.mem_cons_of_mem _ hm))
  unfold isMacro
  rw [this]

end PreprocAux

/-- Full statement: a statement followed by a `&&` comment is output as a comment
line of its own followed by the statement.  Proved for comments that do not end
in `;` (and blanks) and contain no further `&`; missing: the others
(`C68_semicolon_fails`, `C68_macro_fails`). -/
theorem C68_comment_separate_partial (low : Str → Str) (mem : Mem) (stmt : List Tok) (body : Str)
    (hs : ∀ t ∈ stmt, t.kind = .other ∨ t.kind = .ws)
    (hd : ∀ t ∈ stmt, Dict.get mem (low t.text) = none)
    (hdc : Dict.get mem (low ('&' :: '&' :: body)) = none)
    (hnl : '\n' ∉ body) (hamp : '&' ∉ body)
    (hsc : continues ('*' :: body.filter (fun ch => ch ≠ '\r')) = false) :
    statementLines (programText (replaceTokens low mem (stmt ++ [⟨.comment, '&' :: '&' :: body⟩, ⟨.other, ['\n']⟩]))) =
      ('*' :: body.filter (fun ch => ch ≠ '\r')) ::
        statementLines (programText (replaceTokens low mem (stmt ++ [⟨.other, ['\n']⟩]))) ∧
    isCommentLine ('*' :: body.filter (fun ch => ch ≠ '\r')) = true := by
  constructor
  · rw [replaceTokens_eq low mem (Dict.get mem) _ (fun _ _ => rfl), replaceTokens_eq low mem (Dict.get mem) _ (fun _ _ => rfl)]
    unfold expand
    have hf : stmt.filter (fun t => t.kind == .comment && (Dict.get mem (low t.text)).isNone) = [] := by
      rw [List.filter_eq_nil_iff]
      intro t ht
      rcases hs t ht with h | h <;> simp [h]
    simp only [List.filter_append, hf, List.nil_append, List.filter_cons, hdc, List.filter_nil, List.flatMap_append,
      List.flatMap_cons]
    simp only [beq_self_eq_true, Option.isNone_none, Bool.and_self, if_true,
      show ((Kind.other == Kind.comment) = false) from rfl, Bool.false_and, Bool.false_eq_true, if_false,
      List.map_cons, List.map_nil, List.nil_append, List.append_nil, List.flatMap_nil]
    unfold programText
    rw [List.map_append, List.flatten_append]
    have hc : ((List.map (fun t => List.filter (fun ch => decide (ch ≠ '\r')) t.text)
        [commentLine ⟨.comment, '&' :: '&' :: body⟩]).flatten) = ('*' :: body.filter (fun ch => ch ≠ '\r')) ++ ['\n'] := by
      simp [commentLine]
    rw [hc, List.append_assoc, List.singleton_append]
    unfold statementLines
    rw [physical_line]
    · rw [joinContinued, hsc]; rfl
    · intro hm
      rw [List.mem_cons] at hm
      rcases hm with hm | hm
      · cases hm
      · exact hnl (List.mem_filter.mp hm).1
  · unfold isCommentLine
    rw [not_macro]
    · rfl
    · intro hm
      rw [List.mem_cons] at hm
      rcases hm with hm | hm
      · cases hm
      · exact hamp (List.mem_filter.mp hm).1

example : statementLines (programText (replaceTokens lowAscii [] ([tok "x", ws, tok "=", ws, tok "1", ws] ++
      [com "&& one\r", tok "\n"]))) = ["* one".toList, "x = 1 ".toList, []] ∧
    continues ('*' :: " one\r".toList.filter (fun ch => ch ≠ '\r')) = false := by
  refine ⟨by decide +kernel, by decide +kernel⟩

namespace PreprocAux

theorem physical_ne (s : Str) : ∃ l ls, physical s = l :: ls := by
  cases s with
  | nil => exact ⟨_, _, rfl⟩
  | cons c cs =>
    rw [physical]
    split
    · exact ⟨_, _, rfl⟩
    · split
      · exact ⟨_, _, rfl⟩
      · exact ⟨_, _, rfl⟩

theorem joined_ne (l : Str) (ls : List Str) : ∃ x xs, joinContinued (l :: ls) = x :: xs := by
  rw [joinContinued]
  split
  · split
    · exact ⟨_, _, rfl⟩
    · exact ⟨_, _, rfl⟩
  · exact ⟨_, _, rfl⟩

theorem macro_name (pre post : Str) (c : Char) (h : '&' ∉ pre) (hc : c.isAlpha = true ∨ c = '_') :
    isMacro (pre ++ '&' :: c :: post) = true := by
  have : (pre ++ '&' :: c :: post).dropWhile (fun c => decide (c ≠ '&')) = '&' :: c :: post := by
    induction pre with
    | nil => simp [List.dropWhile_cons]
    | cons d pre ih =>
      have hd : d ≠ '&' := fun e => h (by rw [e]; exact List.mem_cons_self)
      rw [List.cons_append, List.dropWhile_cons]
      simp only [hd, ne_eq, not_false_eq_true, decide_true, if_true]
      exact ih (fun hm => h (List.mem_cons_of_mem _ hm))
  unfold isMacro
  rw [this]
  rcases hc with hc | hc <;> simp [hc]

/-- The text of a line with a comment behind: the comment line, then the statement. -/
theorem comment_text (low : Str → Str) (mem : Mem) (stmt : List Tok) (body : Str)
    (hs : ∀ t ∈ stmt, t.kind = .other ∨ t.kind = .ws)
    (hdc : Dict.get mem (low ('&' :: '&' :: body)) = none) :
    programText (replaceTokens low mem (stmt ++ [⟨.comment, '&' :: '&' :: body⟩, ⟨.other, ['\n']⟩])) =
      ('*' :: body.filter (fun ch => ch ≠ '\r')) ++ '\n' ::
        programText (replaceTokens low mem (stmt ++ [⟨.other, ['\n']⟩])) := by
  rw [replaceTokens_eq low mem (Dict.get mem) _ (fun _ _ => rfl), replaceTokens_eq low mem (Dict.get mem) _ (fun _ _ => rfl)]
  unfold expand
  have hf : stmt.filter (fun t => t.kind == .comment && (Dict.get mem (low t.text)).isNone) = [] := by
    rw [List.filter_eq_nil_iff]
    intro t ht
    rcases hs t ht with h | h <;> simp [h]
  simp only [List.filter_append, hf, List.nil_append, List.filter_cons, hdc, List.filter_nil, List.flatMap_append,
    List.flatMap_cons]
  simp only [beq_self_eq_true, Option.isNone_none, Bool.and_self, if_true,
    show ((Kind.other == Kind.comment) = false) from rfl, Bool.false_and, Bool.false_eq_true, if_false,
    List.map_cons, List.map_nil, List.nil_append, List.append_nil, List.flatMap_nil]
  unfold programText
  rw [List.map_append, List.flatten_append]
  have hc : ((List.map (fun t => List.filter (fun ch => decide (ch ≠ '\r')) t.text)
      [commentLine ⟨.comment, '&' :: '&' :: body⟩]).flatten) = ('*' :: body.filter (fun ch => ch ≠ '\r')) ++ ['\n'] := by
    simp [commentLine]
  rw [hc, List.append_assoc, List.singleton_append]

theorem comment_line_free (body : Str) (hnl : '\n' ∉ body) : '\n' ∉ '*' :: body.filter (fun ch => ch ≠ '\r') := by
  intro hm
  rw [List.mem_cons] at hm
  rcases hm with hm | hm
  · cases hm
  · exact hnl (List.mem_filter.mp hm).1

end PreprocAux

/-- When the comment ends with `;` the statement itself becomes part of the comment line: the first
statement line `s` of the program without the comment is appended to it and never executed. -/
theorem C68_semicolon_fails (low : Str → Str) (mem : Mem) (stmt : List Tok) (body : Str)
    (hs : ∀ t ∈ stmt, t.kind = .other ∨ t.kind = .ws)
    (hdc : Dict.get mem (low ('&' :: '&' :: body)) = none)
    (hnl : '\n' ∉ body) (hsc : continues ('*' :: body.filter (fun ch => ch ≠ '\r')) = true) :
    ∃ s rest, statementLines (programText (replaceTokens low mem (stmt ++ [⟨.other, ['\n']⟩]))) = s :: rest ∧
      statementLines (programText (replaceTokens low mem (stmt ++ [⟨.comment, '&' :: '&' :: body⟩, ⟨.other, ['\n']⟩]))) =
        ('*' :: body.filter (fun ch => ch ≠ '\r') ++ '\n' :: s) :: rest ∧
      ('&' ∉ body → '&' ∉ s → isCommentLine ('*' :: body.filter (fun ch => ch ≠ '\r') ++ '\n' :: s) = true) := by
  rw [comment_text low mem stmt body hs hdc]
  unfold statementLines
  rw [physical_line _ _ (comment_line_free body hnl)]
  obtain ⟨l, ls, e⟩ := physical_ne (programText (replaceTokens low mem (stmt ++ [⟨.other, ['\n']⟩])))
  obtain ⟨x, xs, e'⟩ := joined_ne l ls
  rw [e, e', joinContinued, hsc, e']
  refine ⟨x, xs, rfl, rfl, fun h1 h2 => ?_⟩
  unfold isCommentLine
  rw [not_macro]
  · rfl
  · intro hm
    simp only [List.cons_append, List.mem_cons, List.mem_append, List.mem_filter] at hm
    rcases hm with hm | hm | hm | hm
    · cases hm
    · exact h1 hm.1
    · cases hm
    · exact h2 hm

example : statementLines (programText (replaceTokens lowAscii [] [tok "x", tok "=", tok "1", ws, com "&& one;", tok "\n"])) =
      ["* one;\nx=1 ".toList, []] ∧ continues "* one;".toList = true := by
  refine ⟨by decide +kernel, by decide +kernel⟩

/-- When the comment mentions `&name` its line is no longer read as a comment but as a macro
substitution. -/
theorem C68_macro_fails (low : Str → Str) (mem : Mem) (stmt : List Tok) (pre post : Str) (c : Char)
    (hs : ∀ t ∈ stmt, t.kind = .other ∨ t.kind = .ws)
    (hdc : Dict.get mem (low ('&' :: '&' :: (pre ++ '&' :: c :: post))) = none)
    (hnl : '\n' ∉ pre ++ '&' :: c :: post) (hpre : '&' ∉ pre) (hc : c.isAlpha = true ∨ c = '_')
    (hsc : continues ('*' :: (pre ++ '&' :: c :: post).filter (fun ch => ch ≠ '\r')) = false) :
    ∃ l, statementLines (programText (replaceTokens low mem
        (stmt ++ [⟨.comment, '&' :: '&' :: (pre ++ '&' :: c :: post)⟩, ⟨.other, ['\n']⟩]))) =
        l :: statementLines (programText (replaceTokens low mem (stmt ++ [⟨.other, ['\n']⟩]))) ∧
      l = '*' :: (pre ++ '&' :: c :: post).filter (fun ch => ch ≠ '\r') ∧ isCommentLine l = false := by
  refine ⟨_, ?_, rfl, ?_⟩
  · rw [comment_text low mem stmt _ hs hdc]
    unfold statementLines
    rw [physical_line _ _ (comment_line_free _ hnl), joinContinued, hsc]
    rfl
  · have hcr : c ≠ '\r' := by
      rintro rfl
      rcases hc with hc | hc
      · exact absurd hc (by decide)
      · exact absurd hc (by decide)
    have : '*' :: (pre ++ '&' :: c :: post).filter (fun ch => ch ≠ '\r') =
        ('*' :: pre.filter (fun ch => ch ≠ '\r')) ++ '&' :: c :: post.filter (fun ch => ch ≠ '\r') := by
      simp [List.filter_append, List.filter_cons, hcr]
    unfold isCommentLine
    rw [this, macro_name _ _ _ _ hc]
    · simp
    · intro hm
      rw [List.mem_cons] at hm
      rcases hm with hm | hm
      · cases hm
      · exact hpre (List.mem_filter.mp hm).1

example : statementLines (programText (replaceTokens lowAscii [] [tok "x", tok "=", tok "1", ws, com "&& see &name", tok "\n"])) =
      ["* see &name".toList, "x=1 ".toList, []] ∧
    isCommentLine "* see &name".toList = false := by
  decide +kernel

end Props
