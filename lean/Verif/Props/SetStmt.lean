import Verif.Model.SetStmt
import Verif.Props.Settings
/-!
# C144: SET statements of a program
-/
namespace Props.SetStmtSpec
open Model.Settings (Val)
open Model.SetStmt

/-- The names of the settings, in full. -/
def fullName : Token → String
  | .assert => "asserts"
  | .asserts => "asserts"
  | .bell => "bell"
  | .century => "century"
  | .compatible => "compatible"
  | .console => "console"
  | .cursor => "cursor"
  | .delete => "deleted"
  | .deleted => "deleted"
  | .escape => "escape"
  | .exact => "exact"
  | .exclusive => "exclusive"
  | .index => "index"
  | .multilocks => "multilocks"
  | .near => "near"
  | .notify => "notify"
  | .refresh => "refresh"
  | .safety => "safety"
  | .status => "status"
  | .step => "step"
  | .tableprompt => "tableprompt"
  | .talk => "talk"
  | .unique => "unique"

def settingOf (tok : Token) (bar : Bool) : String := if bar then "status bar" else fullName tok

def onOff (b : Bool) : Val := .str (if b then ['O', 'N'] else ['O', 'F', 'F'])

/-- What SET(setting, i) is to return after the statement. -/
def effect : Tail → List (Nat × Val)
  | .onOff b => [(0, onOff b)]
  | .bellTo v => [(1, v)]
  | .centuryTo none => []
  | .centuryTo (some (c, none)) => [(1, c)]
  | .centuryTo (some (c, some r)) => [(1, c), (2, r)]
  | .mode .on _ => [(0, onOff true)]
  | .mode .db4 _ => [(0, onOff true)]
  | .mode .off _ => [(0, onOff false)]
  | .mode .foxplus _ => [(0, onOff false)]
  | .notify true b => [(1, onOff b)]
  | .notify false b => [(0, onOff b)]
  | .indexTo v => [(0, v)]
  | .refreshTo a none => [(0, a)]
  | .refreshTo a (some b) => [(0, a), (1, b)]

/-- Settings that the run-time library has. -/
def supported : List String :=
  ["bell", "century", "compatible", "cursor", "deleted", "escape", "exact", "index", "multilocks", "near", "notify", "refresh", "status",
    "status bar", "talk", "unique"]

/-- The word is written in full. -/
def InFull (s : Stmt) : Prop := Model.Settings.lower s.text = (fullName s.tok).toList

end Props.SetStmtSpec

namespace Props.SetStmtAux
open Model.Settings Model.SetStmt SetStmtSpec SettingsAux

theorem len_setSwitch {l l' args : List Val} (h : setSwitch l args = .ok l') : l'.length = l.length := by
  unfold setSwitch at h
  split at h
  · cases h
  · cases h
  · split at h
    · cases h
    · exact len_setAt h

theorem len_new (w : Str) (l args : List Val) (kw : Kw) (h1 : w ≠ "refresh".toList) (h2 : w ≠ "index".toList) :
    (newSetting w l args kw).1.length = l.length := by
  by_cases hb : w = "bell".toList
  · rw [hb]; exact len_bell l args kw
  by_cases hc : w = "century".toList
  · rw [hc]; exact len_century l args kw
  unfold newSetting
  simp only
  rw [if_neg hb, if_neg hc]
  split
  · unfold setCompatible
    split
    · rfl
    · rename_i st hst
      have hl := len_setSwitch hst
      split
      · exact hl
      · split
        · split
          · rename_i h; rw [len_setAt h, hl]
          · exact hl
        · exact hl
      · exact hl
  · split
    · unfold setNotify
      split
      · rename_i h
        split at h
        · exact len_setAt h
        · split at h
          · cases h
          · exact len_setAt h
      · rfl
    · split
      · split
        · rename_i h; exact len_setSwitch h
        · rfl
      · rw [if_neg (fun h => h.elim h2 h1)]

/-- The number of values of a setting. -/
theorem len_all (h : List Cmd) (w : Str) (l : List Val) (h1 : w ≠ "refresh".toList) (h2 : w ≠ "index".toList)
    (hi : initial w = some (some l)) : ∃ l', run initial h w = some (some l') ∧ l'.length = l.length := by
  suffices ∀ st : State, (∃ l', st w = some (some l') ∧ l'.length = l.length) →
      ∃ l', run st h w = some (some l') ∧ l'.length = l.length from this _ ⟨l, hi, rfl⟩
  induction h with
  | nil => intro st hs; exact hs
  | cons c h ih =>
    intro st ⟨l', hs, hl⟩
    apply ih
    show ∃ l', (setCmd st c.1 c.2.1 c.2.2).1 w = some (some l') ∧ l'.length = l.length
    unfold setCmd
    split
    · exact ⟨l', hs, hl⟩
    · exact ⟨l', hs, hl⟩
    · rename_i s hc
      by_cases e : w = lower c.1
      · rw [← e] at hc ⊢
        rw [hs] at hc
        cases hc
        exact ⟨_, if_pos rfl, by rw [len_new w l' _ _ h1 h2, hl]⟩
      · exact ⟨l', by simp [e, hs], hl⟩

theorem some_all (h : List Cmd) (w : Str) (hi : ∃ l, initial w = some (some l)) : ∃ l, run initial h w = some (some l) := by
  suffices ∀ st : State, (∃ l, st w = some (some l)) → ∃ l, run st h w = some (some l) from this _ hi
  induction h with
  | nil => intro st hs; exact hs
  | cons c h ih =>
    intro st ⟨l', hs⟩
    apply ih
    show ∃ l, (setCmd st c.1 c.2.1 c.2.2).1 w = some (some l)
    unfold setCmd
    split
    · exact ⟨l', hs⟩
    · exact ⟨l', hs⟩
    · by_cases e : w = lower c.1
      · exact ⟨_, if_pos e⟩
      · exact ⟨l', by simp [e, hs]⟩

/-- The calls made by statements. -/
def calls (l : List Stmt) : List Cmd := l.filterMap visitSetCmd

theorem execAll_eq (l : List Stmt) : ∀ st, execAll st l = run st (calls l) := by
  induction l with
  | nil => intro st; rfl
  | cons s l ih =>
    intro st
    show execAll (exec st s).1 l = _
    rw [ih]
    unfold calls exec
    cases hv : visitSetCmd s with
    | none => rw [List.filterMap_cons_none hv]
    | some c => rw [List.filterMap_cons_some hv]; rfl

theorem list1 {α : Type} {l : List α} {n : Nat} (h : l.length = n) (hn : n = 1) : ∃ a, l = [a] := by
  subst hn
  match l, h with
  | [a], _ => exact ⟨a, rfl⟩

theorem list2 {α : Type} {l : List α} {n : Nat} (h : l.length = n) (hn : n = 2) : ∃ a b, l = [a, b] := by
  subst hn
  match l, h with
  | [a, b], _ => exact ⟨a, b, rfl⟩

theorem switch_ok (h : List Cmd) (w : Str) (b : Bool) (hw : w ∈ SettingsSpec.onOffWords) (hl : lower w = w) :
    let r := setCmd (run initial h) w [onOffArg (.onOff b)] {}
    r.2 = none ∧ query r.1 w 0 = .ok (SetStmtSpec.onOff b) ∧ ∀ x, x ≠ w → r.1 x = run initial h x := by
  have hs : ∃ s, onOffArg (.onOff b) = .str s ∧ lower s ∈ ["on".toList, "off".toList] ∧ SetStmtSpec.onOff b = .str (upper s) := by
    cases b
    · exact ⟨"OFF".toList, rfl, by decide, by decide⟩
    · exact ⟨"ON".toList, rfl, by decide, by decide⟩
  obtain ⟨s, h1, h2, h3⟩ := hs
  rw [h1, h3]
  obtain ⟨a, b, _, d⟩ := C20_switch_read_back h w s [] {} (by rw [hl]; exact hw) h2
  rw [hl] at d
  exact ⟨a, b, d⟩

/-- The effect of a call. -/
def Works (h : List Cmd) (c : Str × List Val × Kw) (w : Str) (eff : List (Nat × Val)) : Prop :=
  (setCmd (run initial h) c.1 c.2.1 c.2.2).2 = none ∧
  (∀ p ∈ eff, query (setCmd (run initial h) c.1 c.2.1 c.2.2).1 w p.1 = .ok p.2) ∧
  ∀ x, x ≠ w → (setCmd (run initial h) c.1 c.2.1 c.2.2).1 x = run initial h x

theorem works_switch (h : List Cmd) (w : Str) (b : Bool) (hw : w ∈ SettingsSpec.onOffWords) (hl : lower w = w) :
    Works h (w, [onOffArg (.onOff b)], {}) w [(0, SetStmtSpec.onOff b)] := by
  obtain ⟨h1, h2, h3⟩ := switch_ok h w b hw hl
  exact ⟨h1, fun p hp => by cases List.mem_singleton.mp hp; exact h2, h3⟩

theorem works_onOff (h : List Cmd) (tok : Token) (text w : Str) (bar b : Bool) (hf : (if bar then lower text ++ " bar".toList else lower text) = w)
    (hw : w ∈ SettingsSpec.onOffWords) (hl : lower w = w) :
    ∃ c, visitSetCmd ⟨tok, text, bar, .onOff b⟩ = some c ∧ Works h c w (effect (.onOff b)) := by
  refine ⟨(w, [onOffArg (.onOff b)], {}), ?_, works_switch h w b hw hl⟩
  have h1 : w ≠ "bell".toList := by
    rintro rfl
    revert hw
    decide
  have h2 : ∀ w ∈ SettingsSpec.onOffWords, w ∈ Model.SetStmt.onOffWords := by decide
  simp only [visitSetCmd]
  rw [hf, if_neg h1, if_pos (h2 w hw)]

theorem works_of {h : List Cmd} {w : Str} {l args : List Val} {kw : Kw} {eff : List (Nat × Val)} (hl : lower w = w)
    (hs : run initial h w = some (some l)) (hn : (newSetting w l args kw).2 = none)
    (he : ∀ p ∈ eff, (newSetting w l args kw).1[p.1]? = some p.2) : Works h (w, args, kw) w eff := by
  unfold Works
  simp only [setCmd, hl, hs, query]
  refine ⟨hn, fun p hp => ?_, fun x hx => by simp [hx]⟩
  simp only [if_true, he p hp]

theorem call_compatible {s : Stmt} {w : Str} {args : List Val} {kw : Kw} (h : visitSetCmd s = some (w, args, kw))
    (hw : "compatible".toList = lower w) :
    ∃ a, (a = Val.str "ON".toList ∨ a = Val.str "OFF".toList) ∧
      (args = [a] ∨ args = [a, .str "PROMPT".toList] ∨ args = [a, .str "NOPROMPT".toList]) := by
  have hon : ∀ t, onOffArg t = .str "ON".toList ∨ onOffArg t = .str "OFF".toList := by
    intro t
    unfold onOffArg
    split
    · exact Or.inl rfl
    · exact Or.inr rfl
  unfold visitSetCmd at h
  simp only at h
  generalize hx : (if s.bar then lower s.text ++ " bar".toList else lower s.text) = x at h
  split at h
  · rename_i hb
    subst hb
    split at h <;> cases h <;> exact absurd hw (by decide)
  split at h
  · rename_i hb
    cases h
    have : ∀ x ∈ Model.SetStmt.onOffWords, "compatible".toList ≠ lower x := by decide
    exact absurd hw (this _ hb)
  split at h
  · rename_i hb
    subst hb
    split at h <;> cases h <;> exact absurd hw (by decide)
  split at h
  · split at h
    · rename_i m p _
      have hm : (if m = .on ∨ m = .db4 then Val.str "ON".toList else Val.str "OFF".toList) = .str "ON".toList ∨
          (if m = .on ∨ m = .db4 then Val.str "ON".toList else Val.str "OFF".toList) = .str "OFF".toList := by
        cases m <;> simp
      split at h <;> cases h
      · exact ⟨_, hm, Or.inl rfl⟩
      · exact ⟨_, hm, Or.inr (Or.inl rfl)⟩
      · exact ⟨_, hm, Or.inr (Or.inr rfl)⟩
    · cases h
      exact ⟨_, hon _, Or.inl rfl⟩
  split at h
  · rename_i hb
    subst hb
    split at h <;> cases h <;> exact absurd hw (by decide)
  split at h
  · rename_i hb
    subst hb
    split at h <;> cases h <;> exact absurd hw (by decide)
  split at h
  · rename_i hb
    subst hb
    split at h
    · cases h; exact absurd hw (by decide)
    · cases h
  · cases h

end Props.SetStmtAux

namespace Props
open Model.Settings Model.SetStmt SetStmtSpec SetStmtAux SettingsAux

/-- C144, for statements with the word written in full and settings that the run-time library has:
after every history of SET statements, the statement is converted, it raises no exception,
afterwards SET() returns the values given in it, and all other settings are as before.  Missing:
abbreviated words and settings the library lacks (`C144_abbreviated_fails`, `C144_dropped_fails`,
`C63_set_word_fails`). -/
theorem C144_in_effect_partial (history : List Stmt) (s : Stmt) (hp : s.Parses) (hf : InFull s) (hk : settingOf s.tok s.bar ∈ supported) :
    visitSetCmd s ≠ none ∧ (exec (execAll initial history) s).2 = none ∧
    (∀ p ∈ effect s.tail, query (exec (execAll initial history) s).1 (settingOf s.tok s.bar).toList p.1 = .ok p.2) ∧
    (∀ x, x ≠ (settingOf s.tok s.bar).toList → (exec (execAll initial history) s).1 x = execAll initial history x) := by
  rw [execAll_eq]
  generalize calls history = h
  suffices ∃ c, visitSetCmd s = some c ∧ Works h c (settingOf s.tok s.bar).toList (effect s.tail) by
    obtain ⟨c, h1, h2, h3, h4⟩ := this
    unfold exec
    rw [h1]
    exact ⟨by simp, h2, h3, h4⟩
  obtain ⟨tok, text, bar, tail⟩ := s
  obtain ⟨p1, p2, p3⟩ := hp
  simp only [InFull] at hf
  simp only at p1 p2 p3 hk ⊢
  have hb : tok ≠ .status → bar = false := by
    intro ht
    cases hb : bar with
    | false => rfl
    | true => exact absurd (p2 hb) ht
  cases tok <;> cases tail <;> first | exact p3.elim | skip
  all_goals first
    | (rw [hf] at p1; exact absurd p1 (by decide))
    | skip
  case status.onOff b =>
    cases bar
    · exact works_onOff h _ _ _ _ _ hf (by decide) (by decide)
    · exact works_onOff h _ _ (bar := true) (b := b) (w := "status bar".toList) (by simp only [if_true, hf]; decide) (by decide) (by decide)
  all_goals
    have hb' := hb (by decide)
    subst hb'
  all_goals first
    | exact absurd hk (by decide)
    | exact works_onOff h _ _ _ _ _ hf (by decide) (by decide)
    | skip
  case bell.onOff b =>
    obtain ⟨l, hs, hl⟩ := len_all h "bell".toList _ (by decide) (by decide) rfl
    obtain ⟨x, y, rfl⟩ := list2 hl rfl
    refine ⟨("bell".toList, [onOffArg (.onOff b)], {}), by simp only [visitSetCmd, Bool.false_eq_true, if_false, hf]; rfl, works_of (by decide) hs ?_ ?_⟩
    · cases b <;> rfl
    · cases b <;> simp [effect] <;> rfl
  case bell.bellTo v =>
    obtain ⟨l, hs, hl⟩ := len_all h "bell".toList _ (by decide) (by decide) rfl
    obtain ⟨x, y, rfl⟩ := list2 hl rfl
    refine ⟨("bell".toList, [.str "TO".toList, v], {}), by simp only [visitSetCmd, Bool.false_eq_true, if_false, hf]; rfl, works_of (by decide) hs rfl ?_⟩
    simp [effect]; rfl
  case century.onOff b =>
    obtain ⟨x, y, z, w, hs⟩ := (len_run h).2
    refine ⟨("century".toList, [onOffArg (.onOff b)], {}), by simp only [visitSetCmd, Bool.false_eq_true, if_false, hf]; rfl, works_of (by decide) hs rfl ?_⟩
    cases b <;> simp [effect] <;> rfl
  case century.centuryTo o =>
    obtain ⟨x, y, z, w, hs⟩ := (len_run h).2
    match o with
    | none =>
      exact ⟨("century".toList, [], { century := some (.int 19), rollover := some (.int 67) }),
        by simp only [visitSetCmd, Bool.false_eq_true, if_false, hf]; rfl, works_of (by decide) hs rfl (by simp [effect])⟩
    | some (c, none) =>
      exact ⟨("century".toList, [], { century := some c, rollover := some (.int 67) }),
        by simp only [visitSetCmd, Bool.false_eq_true, if_false, hf]; rfl, works_of (by decide) hs rfl (by simp [effect]; rfl)⟩
    | some (c, some r) =>
      exact ⟨("century".toList, [], { century := some c, rollover := some r }),
        by simp only [visitSetCmd, Bool.false_eq_true, if_false, hf]; rfl, works_of (by decide) hs rfl (by simp [effect]; exact ⟨rfl, rfl⟩)⟩
  case compatible.mode m p =>
    obtain ⟨l, hs, hl⟩ := len_all h "compatible".toList _ (by decide) (by decide) rfl
    obtain ⟨x, y, rfl⟩ := list2 hl rfl
    rcases p with _ | _ | _ <;> cases m <;>
      exact ⟨_, by simp only [visitSetCmd, Bool.false_eq_true, if_false, hf]; rfl, works_of (by decide) hs rfl (by simp [effect]; rfl)⟩
  case notify.notify c b =>
    obtain ⟨l, hs, hl⟩ := len_all h "notify".toList _ (by decide) (by decide) rfl
    obtain ⟨x, y, rfl⟩ := list2 hl rfl
    cases c <;> cases b <;>
      exact ⟨_, by simp only [visitSetCmd, Bool.false_eq_true, if_false, hf]; rfl, works_of (by decide) hs rfl (by simp [effect]; rfl)⟩
  case index.indexTo v =>
    obtain ⟨l, hs⟩ := some_all h "index".toList ⟨_, rfl⟩
    exact ⟨_, by simp only [visitSetCmd, Bool.false_eq_true, if_false, hf]; rfl, works_of (by decide) hs rfl (by simp [effect]; rfl)⟩
  case refresh.refreshTo a b =>
    obtain ⟨l, hs⟩ := some_all h "refresh".toList ⟨_, rfl⟩
    cases b with
    | none => exact ⟨_, by simp only [visitSetCmd, Bool.false_eq_true, if_false, hf]; rfl, works_of (by decide) hs rfl (by simp [effect]; rfl)⟩
    | some b => exact ⟨_, by simp only [visitSetCmd, Bool.false_eq_true, if_false, hf]; rfl, works_of (by decide) hs rfl (by simp [effect]; exact ⟨rfl, rfl⟩)⟩

example : (Stmt.mk .compatible "Compatible".toList false (.mode .db4 (some true))).Parses ∧
    InFull (Stmt.mk .compatible "Compatible".toList false (.mode .db4 (some true))) ∧
    query (exec (execAll initial [Stmt.mk .exact "EXACT".toList false (.onOff true)]) (Stmt.mk .compatible "Compatible".toList false (.mode .db4 (some true)))).1
      "compatible".toList 0 = .ok (.str "ON".toList) :=
  ⟨⟨by decide, fun h => (by cases h), trivial⟩, by unfold InFull; decide, by decide⟩

/-- C144 does not hold for abbreviated words, which the parser accepts: such a statement becomes a
comment, whatever the setting and the value. -/
theorem C144_abbreviated_fails (s : Stmt) (hp : s.Parses) (hf : ¬ InFull s) (st : State) :
    visitSetCmd s = none ∧ exec st s = (st, none) := by
  suffices h : visitSetCmd s = none by
    refine ⟨h, ?_⟩
    unfold exec
    rw [h]
  obtain ⟨tok, text, bar, tail⟩ := s
  obtain ⟨p1, p2, p3⟩ := hp
  simp only [InFull] at hf
  simp only at p1 p2
  clear p3
  have hb : bar = false := by
    cases hb : bar with
    | false => rfl
    | true =>
      exfalso
      have := p2 hb
      subst this
      simp only [spellings, List.mem_singleton] at p1
      exact hf p1
  subst hb
  simp only [visitSetCmd, Bool.false_eq_true, if_false]
  generalize lower text = t at p1 hf
  cases tok <;> simp only [spellings, List.map_cons, List.map_nil, List.mem_cons, List.not_mem_nil, or_false] at p1 <;>
    first
      | exact absurd p1 hf
      | (rcases p1 with rfl | rfl | rfl | rfl <;> first | exact absurd rfl hf | rfl)
      | (rcases p1 with rfl | rfl | rfl <;> first | exact absurd rfl hf | rfl)
      | (rcases p1 with rfl | rfl <;> first | exact absurd rfl hf | rfl)

example : (Stmt.mk .exact "EXAC".toList false (.onOff true)).Parses ∧ ¬ InFull (Stmt.mk .exact "EXAC".toList false (.onOff true)) ∧
    (Stmt.mk .delete "DELETE".toList false (.onOff true)).Parses ∧ ¬ InFull (Stmt.mk .delete "DELETE".toList false (.onOff true)) :=
  ⟨⟨by decide, fun h => (by cases h), trivial⟩, by unfold InFull; decide, ⟨by decide, fun h => (by cases h), trivial⟩, by unfold InFull; decide⟩

/-- C144 does not hold for ASSERTS, CONSOLE, SAFETY and STEP, which become comments as well. -/
theorem C144_dropped_fails (s : Stmt) (hp : s.Parses) (ht : s.tok ∈ [.assert, .asserts, .console, .safety, .step]) (st : State) :
    visitSetCmd s = none ∧ exec st s = (st, none) := by
  suffices h : visitSetCmd s = none by
    refine ⟨h, ?_⟩
    unfold exec
    rw [h]
  obtain ⟨tok, text, bar, tail⟩ := s
  obtain ⟨p1, p2, p3⟩ := hp
  simp only at p1 p2 ht
  clear p3
  have hb : bar = false := by
    cases hb : bar with
    | false => rfl
    | true => rw [p2 hb] at ht; exact absurd ht (by decide)
  subst hb
  simp only [visitSetCmd, Bool.false_eq_true, if_false]
  generalize lower text = t at p1
  simp only [List.mem_cons, List.not_mem_nil, or_false] at ht
  rcases ht with rfl | rfl | rfl | rfl | rfl <;>
    simp only [spellings, List.map_cons, List.map_nil, List.mem_cons, List.not_mem_nil, or_false] at p1 <;>
    first
      | (rcases p1 with rfl | rfl | rfl <;> rfl)
      | (subst p1; rfl)

example : (Stmt.mk .safety "SAFETY".toList false (.onOff false)).Parses := ⟨by decide, fun h => (by cases h), trivial⟩

/-- C144 does not hold for EXCLUSIVE and TABLEPROMPT either: written in full they become calls of a setting that the run-time
library does not have, so that the statement raises KeyError after every history of SET statements. -/
theorem C144_unknown_fails (history : List Stmt) (s : Stmt) (hp : s.Parses) (hf : InFull s) (ht : s.tok ∈ [.exclusive, .tableprompt]) :
    exec (execAll initial history) s = (execAll initial history, some .keyError) := by
  obtain ⟨tok, text, bar, tail⟩ := s
  obtain ⟨_, p2, _⟩ := hp
  simp only at p2 ht
  have hb : bar = false := by
    cases hb : bar with
    | false => rfl
    | true => rw [p2 hb] at ht; exact absurd ht (by decide)
  subst hb
  simp only [InFull] at hf
  simp only [List.mem_cons, List.not_mem_nil, or_false] at ht
  rw [execAll_eq]
  rcases ht with rfl | rfl
  · have hv : visitSetCmd ⟨.exclusive, text, false, tail⟩ = some ("exclusive".toList, [onOffArg tail], {}) := by
      simp only [visitSetCmd, Bool.false_eq_true, if_false, hf]; rfl
    unfold exec; rw [hv]
    exact C63_set_word_fails _ _ (by decide) _ _
  · have hv : visitSetCmd ⟨.tableprompt, text, false, tail⟩ = some ("tableprompt".toList, [onOffArg tail], {}) := by
      simp only [visitSetCmd, Bool.false_eq_true, if_false, hf]; rfl
    unfold exec; rw [hv]
    exact C63_set_word_fails _ _ (by decide) _ _

example : (Stmt.mk .exclusive "EXCLUSIVE".toList false (.onOff false)).Parses ∧ InFull (Stmt.mk .exclusive "EXCLUSIVE".toList false (.onOff false)) :=
  ⟨⟨by decide, fun h => (by cases h), trivial⟩, by unfold InFull; decide⟩

/-- C144 does not hold for NOPROMPT: after every history of SET statements the second value of
COMPATIBLE is what it was in the beginning. -/
theorem C144_noprompt_fails (history : List Stmt) :
    query (execAll initial history) "compatible".toList 1 = .ok (.str "PROMPT".toList) := by
  suffices ∀ st : State, (∃ v, st "compatible".toList = some (some [v, .str "PROMPT".toList])) →
      ∃ v, execAll st history "compatible".toList = some (some [v, .str "PROMPT".toList]) by
    obtain ⟨v, hv⟩ := this initial ⟨_, rfl⟩
    unfold query
    rw [show lower "compatible".toList = "compatible".toList by decide, hv]
    rfl
  induction history with
  | nil => intro st h; exact h
  | cons s history ih =>
    intro st ⟨v, hv⟩
    apply ih
    show ∃ v, (exec st s).1 "compatible".toList = some (some [v, .str "PROMPT".toList])
    unfold exec
    cases hc : visitSetCmd s with
    | none => exact ⟨v, hv⟩
    | some c =>
      obtain ⟨w, args, kw⟩ := c
      simp only
      by_cases hw : "compatible".toList = lower w
      · obtain ⟨a, ha, hargs⟩ := call_compatible hc hw
        have e : setCmd st w args kw = (fun x => if x = "compatible".toList then some (some (setCompatible [v, .str "PROMPT".toList] args).1) else st x,
            (setCompatible [v, .str "PROMPT".toList] args).2) := by
          simp only [setCmd, ← hw, hv]
          rfl
        rw [e]
        simp only [if_true]
        rcases ha with rfl | rfl <;> rcases hargs with rfl | rfl | rfl <;> exact ⟨_, rfl⟩
      · exact ⟨v, by rw [C20_others_unchanged st w args kw _ hw]; exact hv⟩

example : (Stmt.mk .compatible "COMPATIBLE".toList false (.mode .on (some false))).Parses ∧
    query (execAll initial [Stmt.mk .compatible "COMPATIBLE".toList false (.mode .on (some false))]) "compatible".toList 1
      = .ok (.str "PROMPT".toList) := ⟨⟨by decide, fun h => (by cases h), trivial⟩, by decide⟩

end Props
