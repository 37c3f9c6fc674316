import Verif.Model.Settings
/-!
# Properties of SET (C20, C63) and of DOW and QUARTER (C19)
-/
namespace Props.SettingsSpec

/-- The settings that are either ON or OFF. -/
def onOffWords : List (List Char) :=
  ["cursor", "deleted", "escape", "exact", "multilocks", "near", "status", "status bar", "talk", "unique"].map String.toList

end Props.SettingsSpec

namespace Props.SettingsAux
open Model.Settings SettingsSpec

theorem words {w : Str} (h : w ∈ onOffWords) : w ∈ switchWords := h

/-- One SET command: word, values, keyword arguments. -/
abbrev Cmd := Str × List Val × Kw

def run (st : State) (h : List Cmd) : State := h.foldl (fun st c => (setCmd st c.1 c.2.1 c.2.2).1) st

def onOff : List Str := ["ON".toList, "OFF".toList]

/-- The ON/OFF settings always hold one of their two values. -/
def Inv (st : State) : Prop :=
  ∀ w ∈ switchWords, ∃ v ∈ onOff, st w = some (some [.str v])

theorem inv_initial : Inv initial := by
  unfold Inv switchWords
  intro w hw
  simp only [List.map_cons, List.map_nil, List.mem_cons, List.not_mem_nil, or_false] at hw
  rcases hw with rfl | rfl | rfl | rfl | rfl | rfl | rfl | rfl | rfl | rfl <;>
    first
      | exact ⟨"ON".toList, by decide, by decide⟩
      | exact ⟨"OFF".toList, by decide, by decide⟩

theorem toLower_cases {c d : Char} (h : c.toLower = d) :
    c = d ∨ (65 ≤ c.toNat ∧ c.toNat ≤ 90 ∧ d.toNat = c.toNat + 32) := by
  unfold Char.toLower at h
  split at h
  · rename_i hc
    right
    have h1 : 65 ≤ c.toNat := hc.1
    have h2 : c.toNat ≤ 90 := hc.2
    refine ⟨h1, h2, ?_⟩
    rw [← h]
    show (c.val + 32).toNat = c.val.toNat + 32
    have h2' : c.val.toNat ≤ 90 := h2
    rw [UInt32.toNat_add]
    simp
    omega
  · left; exact h

theorem toUpper_of_lower {c : Char} (d e : Char) (h : c.toLower = d)
    (hd : d.toUpper = e) (he : e.toUpper = e) (hde : d.toNat = e.toNat + 32) : c.toUpper = e := by
  rcases toLower_cases h with h1 | ⟨_, _, h3⟩
  · rw [h1, hd]
  · have : c = e := by
      apply Char.ext
      apply UInt32.toNat_inj.mp
      have a : d.val.toNat = e.val.toNat + 32 := hde
      have b : d.val.toNat = c.val.toNat + 32 := h3
      omega
    rw [this, he]

theorem upper_of_lower {s : Str} (h : lower s ∈ ["on".toList, "off".toList]) :
    upper s ∈ onOff := by
  have o : ∀ c : Char, c.toLower = 'o' → c.toUpper = 'O' := fun c hc =>
    toUpper_of_lower 'o' 'O' hc (by decide) (by decide) (by decide)
  have n : ∀ c : Char, c.toLower = 'n' → c.toUpper = 'N' := fun c hc =>
    toUpper_of_lower 'n' 'N' hc (by decide) (by decide) (by decide)
  have f : ∀ c : Char, c.toLower = 'f' → c.toUpper = 'F' := fun c hc =>
    toUpper_of_lower 'f' 'F' hc (by decide) (by decide) (by decide)
  simp only [List.mem_cons, List.not_mem_nil, or_false] at h
  rcases h with h | h
  · have hl := congrArg List.length h
    simp [lower] at hl
    match s, hl with
    | [a, b], _ =>
      have h' : [a.toLower, b.toLower] = ['o', 'n'] := h
      simp at h'
      simp [upper, onOff, o a h'.1, n b h'.2]
  · have hl := congrArg List.length h
    simp [lower] at hl
    match s, hl with
    | [a, b, c], _ =>
      have h' : [a.toLower, b.toLower, c.toLower] = ['o', 'f', 'f'] := h
      simp at h'
      simp [upper, onOff, o a h'.1, f b h'.2.1, f c h'.2.2]

theorem newSetting_switch {w : Str} (hw : w ∈ switchWords) (settings args : List Val) (kw : Kw) :
    newSetting w settings args kw = match setSwitch settings args with
      | .ok s => (s, none)
      | .error e => (settings, some e) := by
  have : ∀ w ∈ switchWords, w ≠ "bell".toList ∧ w ≠ "century".toList ∧ w ≠ "compatible".toList ∧
      w ≠ "notify".toList := by decide
  obtain ⟨a, b, c, d⟩ := this w hw
  unfold newSetting
  simp only [if_neg a, if_neg b, if_neg c, if_neg d, if_pos hw]
  all_goals cases setSwitch settings args <;> rfl

theorem switch_step {st : State} {word : Str} {args : List Val} {kw : Kw} (hi : Inv st)
    (hw : lower word ∈ switchWords) :
    (∃ s rest, args = .str s :: rest ∧ lower s ∈ ["on".toList, "off".toList] ∧
      setCmd st word args kw
        = (fun x => if x = lower word then some (some [.str (upper s)]) else st x, none))
    ∨ (∃ e, setCmd st word args kw = (st, some e) ∧
        ¬ ∃ s rest, args = .str s :: rest ∧ lower s ∈ ["on".toList, "off".toList]) := by
  obtain ⟨v, _, hv⟩ := hi _ hw
  have same : (fun x => if x = lower word then some (some [Val.str v]) else st x) = st := by
    funext x; split
    · rename_i h; rw [h, hv]
    · rfl
  unfold setCmd
  simp only [hv]
  rw [newSetting_switch hw]
  match args with
  | [] =>
    right
    simp only [setSwitch]
    exact ⟨_, by rw [same], by simp⟩
  | .int n :: r =>
    right
    simp only [setSwitch]
    exact ⟨_, by rw [same], by simp⟩
  | .str s :: r =>
    by_cases h : lower s ∈ ["on".toList, "off".toList]
    · left
      refine ⟨s, r, rfl, h, ?_⟩
      simp only [setSwitch, if_neg (not_not_intro h)]
      rfl
    · right
      simp only [setSwitch, if_pos h]
      refine ⟨_, by rw [same], ?_⟩
      rintro ⟨s', r', e, h'⟩
      cases e
      exact h h'

theorem inv_step {st : State} (hi : Inv st) (c : Cmd) : Inv (setCmd st c.1 c.2.1 c.2.2).1 := by
  by_cases hw : lower c.1 ∈ switchWords
  · rcases switch_step (args := c.2.1) (kw := c.2.2) hi hw with ⟨s, r, _, hs, h⟩ | ⟨e, h, _⟩
    · rw [h]
      intro w hw'
      by_cases e : w = lower c.1
      · exact ⟨upper s, upper_of_lower hs, by simp [e]⟩
      · obtain ⟨v, h1, h2⟩ := hi w hw'
        exact ⟨v, h1, by simp [e, h2]⟩
    · rw [h]; exact hi
  · intro w hw'
    have hne : w ≠ lower c.1 := fun h => hw (h ▸ hw')
    obtain ⟨v, h1, h2⟩ := hi w hw'
    refine ⟨v, h1, ?_⟩
    unfold setCmd
    split
    · exact h2
    · exact h2
    · simp [hne, h2]

theorem inv_run (h : List Cmd) : Inv (run initial h) := by
  suffices ∀ st, Inv st → Inv (run st h) from this _ inv_initial
  induction h with
  | nil => intro st hi; exact hi
  | cons c h ih => intro st hi; exact ih _ (inv_step hi c)

/-- BELL has two values and CENTURY four. -/
def Len (st : State) : Prop :=
  (∃ a b, st "bell".toList = some (some [a, b])) ∧ (∃ a b c d, st "century".toList = some (some [a, b, c, d]))

theorem len_setAt {l l' : List Val} {i v} (h : setAt l i v = .ok l') : l'.length = l.length := by
  unfold setAt at h
  split at h <;> cases h
  simp

theorem len_setIf {l l' : List Val} {i v} (h : setIf l i v = .ok l') : l'.length = l.length := by
  unfold setIf at h
  split at h
  · cases h; rfl
  · exact len_setAt h

theorem len_bell (l args : List Val) (kw : Kw) : (newSetting "bell".toList l args kw).1.length = l.length := by
  unfold newSetting
  simp only [if_true]
  cases hb : setBell l args with
  | error e => rfl
  | ok s =>
    unfold setBell at hb
    split at hb
    · cases hb
    · cases hb
    · split at hb
      · cases hb
      · split at hb <;> exact len_setAt hb

theorem len_century (l args : List Val) (kw : Kw) : (newSetting "century".toList l args kw).1.length = l.length := by
  unfold newSetting
  rw [if_neg (by decide), if_pos rfl]
  cases hb : setCentury l args kw with
  | error e => rfl
  | ok s =>
    unfold setCentury at hb
    split at hb
    · cases hb
    · rename_i h1
      split at hb
      · cases hb
      · rename_i h2
        have := len_setIf h1
        have := len_setIf h2
        have := len_setIf hb
        simp only
        omega

theorem len_step {st : State} (hi : Len st) (c : Cmd) : Len (setCmd st c.1 c.2.1 c.2.2).1 := by
  obtain ⟨⟨a, b, h1⟩, a', b', c', d', h2⟩ := hi
  constructor
  · by_cases hw : lower c.1 = "bell".toList
    · have hl := len_bell [a, b] c.2.1 c.2.2
      unfold setCmd
      rw [hw, h1]
      simp only [if_true]
      generalize (newSetting "bell".toList [a, b] c.2.1 c.2.2).1 = l at hl ⊢
      match l, hl with
      | [x, y], _ => exact ⟨x, y, rfl⟩
    · refine ⟨a, b, ?_⟩
      rw [← h1]
      unfold setCmd
      split
      · rfl
      · rfl
      · simp only
        rw [if_neg (fun h => hw h.symm)]
  · by_cases hw : lower c.1 = "century".toList
    · have hl := len_century [a', b', c', d'] c.2.1 c.2.2
      unfold setCmd
      rw [hw, h2]
      simp only [if_true]
      generalize (newSetting "century".toList [a', b', c', d'] c.2.1 c.2.2).1 = l at hl ⊢
      match l, hl with
      | [x, y, z, w], _ => exact ⟨x, y, z, w, rfl⟩
    · refine ⟨a', b', c', d', ?_⟩
      rw [← h2]
      unfold setCmd
      split
      · rfl
      · rfl
      · simp only
        rw [if_neg (fun h => hw h.symm)]

theorem len_run (h : List Cmd) : Len (run initial h) := by
  suffices ∀ st, Len st → Len (run st h) from
    this _ ⟨⟨_, _, rfl⟩, ⟨_, _, _, _, rfl⟩⟩
  induction h with
  | nil => intro st hi; exact hi
  | cons c h ih => intro st hi; exact ih _ (len_step hi c)

/-- No SET command adds a word. -/
theorem keys_run (h : List Cmd) (w : Str) (hw : initial w = none) : run initial h w = none := by
  suffices ∀ st : State, st w = none → run st h w = none from this _ hw
  induction h with
  | nil => intro st hs; exact hs
  | cons c h ih =>
    intro st hs
    apply ih
    show (setCmd st c.1 c.2.1 c.2.2).1 w = none
    unfold setCmd
    split
    · exact hs
    · exact hs
    · rename_i s hc
      have : w ≠ lower c.1 := fun e => by rw [← e, hs] at hc; cases hc
      simp [this, hs]

end Props.SettingsAux

namespace Props
open Model.Settings SettingsAux SettingsSpec

/-! ## C20 -/

/-- After every history of SET commands, SET word ON|OFF (in any letter case, for the ten ON/OFF
words) reads back in upper case; every other word keeps its value. -/
theorem C20_switch_read_back (h : List Cmd) (word s : Str) (rest : List Val) (kw : Kw)
    (hw : lower word ∈ onOffWords) (hs : lower s ∈ ["on".toList, "off".toList]) :
    let r := setCmd (run initial h) word (.str s :: rest) kw
    r.2 = none ∧ query r.1 word 0 = .ok (.str (upper s)) ∧ upper s ∈ ["ON".toList, "OFF".toList]
      ∧ ∀ x, x ≠ lower word → r.1 x = run initial h x := by
  rcases switch_step (args := .str s :: rest) (kw := kw) (inv_run h) (words hw) with
    ⟨s', r', e, _, hc⟩ | ⟨e, _, hn⟩
  · cases e
    simp only [hc]
    refine ⟨trivial, ?_, upper_of_lower hs, ?_⟩
    · simp [query]
    · intro x hx; simp [hx]
  · exact absurd ⟨s, rest, rfl, hs⟩ hn

example : query (setCmd (run initial []) "Status Bar".toList [.str "oFf".toList] {}).1 "status bar".toList 0 = .ok (.str "OFF".toList) := by decide

/-- Any other value raises and changes nothing. -/
theorem C20_switch_rejects (h : List Cmd) (word : Str) (args : List Val) (kw : Kw)
    (hw : lower word ∈ onOffWords)
    (hbad : ¬ ∃ s rest, args = .str s :: rest ∧ lower s ∈ ["on".toList, "off".toList]) :
    ∃ e, setCmd (run initial h) word args kw = (run initial h, some e) := by
  rcases switch_step (args := args) (kw := kw) (inv_run h) (words hw) with ⟨s, r, e, hs, _⟩ | ⟨e, he, _⟩
  · exact absurd ⟨s, r, e, hs⟩ hbad
  · exact ⟨e, he⟩

example : (setCmd (run initial []) "exact".toList [.str "maybe".toList] {}).2 ≠ none ∧ lower "exact".toList ∈ onOffWords := by decide

/-- For every word, legal value or not, all other settings keep their values. -/
theorem C20_others_unchanged (st : State) (word : Str) (args : List Val) (kw : Kw) (x : Str)
    (hx : x ≠ lower word) : (setCmd st word args kw).1 x = st x := by
  unfold setCmd
  split
  · rfl
  · rfl
  · simp [hx]

example : "deleted".toList ≠ lower "EXACT".toList ∧
    (setCmd initial "EXACT".toList [.str "ON".toList] {}).1 "exact".toList ≠ initial "exact".toList := by decide

/-- The values of the ON/OFF settings are ON or OFF at all times. -/
theorem C20_always_on_or_off (h : List Cmd) (word : Str) (hw : lower word ∈ onOffWords) :
    query (run initial h) word 0 = .ok (.str "ON".toList)
      ∨ query (run initial h) word 0 = .ok (.str "OFF".toList) := by
  obtain ⟨v, hv, hs⟩ := inv_run h _ (words hw)
  simp only [query, hs]
  simp [onOff] at hv
  rcases hv with rfl | rfl <;> simp

example : lower "Status Bar".toList ∈ onOffWords ∧ lower "oFf".toList ∈ ["on".toList, "off".toList] := by
  decide

namespace SettingsAux

theorem len_notify (s args : List Val) (kw : Kw) : (newSetting "notify".toList s args kw).1.length = s.length := by
  have e : newSetting "notify".toList s args kw = match setNotify s args kw with
      | .ok x => (x, none)
      | .error e => (s, some e) := rfl
  rw [e]
  cases h : setNotify s args kw with
  | error e => rfl
  | ok x =>
    unfold setNotify setAt at h
    repeat' split at h
    all_goals first | cases h; done | (cases h; simp)

theorem len_compatible (s args : List Val) (kw : Kw) : (newSetting "compatible".toList s args kw).1.length = s.length := by
  have e : newSetting "compatible".toList s args kw = setCompatible s args := rfl
  rw [e]
  unfold setCompatible
  cases h : setSwitch s args with
  | error e => rfl
  | ok x =>
    have hx : x.length = s.length := by
      unfold setSwitch setAt at h
      repeat' split at h
      all_goals first | cases h; done | (cases h; simp)
    simp only
    unfold setAt
    repeat' split
    all_goals simp_all
    all_goals
      rename_i h'
      split at h'
      · cases h'; simp [hx]
      · cases h'

/-- Words whose settings never change their length. -/
theorem len_word (w : Str) (a b : Val) (hini : initial w = some (some [a, b]))
    (hlen : ∀ s args kw, (newSetting w s args kw).1.length = s.length) (h : List Cmd) :
    ∃ x y, run initial h w = some (some [x, y]) := by
  suffices ∀ st : State, (∃ x y, st w = some (some [x, y])) → ∃ x y, run st h w = some (some [x, y]) from
    this _ ⟨a, b, hini⟩
  induction h with
  | nil => intro st hs; exact hs
  | cons c h ih =>
    intro st ⟨x, y, hs⟩
    apply ih
    show ∃ x y, (setCmd st c.1 c.2.1 c.2.2).1 w = some (some [x, y])
    by_cases hw : lower c.1 = w
    · have hl := hlen [x, y] c.2.1 c.2.2
      unfold setCmd
      rw [hw, hs]
      simp only [if_true]
      generalize (newSetting w [x, y] c.2.1 c.2.2).1 = l at hl ⊢
      match l, hl with
      | [x, y], _ => exact ⟨x, y, rfl⟩
    · refine ⟨x, y, ?_⟩
      rw [← hs]
      unfold setCmd
      split
      · rfl
      · rfl
      · simp only
        rw [if_neg (fun h => hw h.symm)]

end SettingsAux

/-- After every history, SET COMPATIBLE with PROMPT or NOPROMPT leaves the second value as it was, while
every other text is stored as the second value; NOTIFY stores any value without a check; SET BELL to
(not in capitals) is taken for an ON/OFF value. -/
theorem C20_fails (h : List Cmd) (word : Str) (rest : List Val) (kw : Kw) :
    (lower word = "compatible".toList → ∀ s t, lower s ∈ ["on".toList, "off".toList] →
      let r := setCmd (run initial h) word (.str s :: .str t :: rest) kw
      r.2 = none ∧ query r.1 word 0 = .ok (.str (upper s)) ∧
      (lower t ∈ ["prompt".toList, "noprompt".toList] → query r.1 word 1 = query (run initial h) word 1) ∧
      (lower t ∉ ["prompt".toList, "noprompt".toList] → query r.1 word 1 = .ok (.str (upper t)))) ∧
    (lower word = "notify".toList → ∀ v,
      let r := setCmd (run initial h) word (v :: rest) {}
      r.2 = none ∧ query r.1 word 0 = .ok v) ∧
    (lower word = "bell".toList → ∀ s, lower s = "to".toList → s ≠ "TO".toList →
      let r := setCmd (run initial h) word (.str s :: rest) kw
      r.2 = none ∧ query r.1 word 0 = .ok (.str (upper s)) ∧ query r.1 word 1 = query (run initial h) word 1) := by
  refine ⟨fun hw s t hs => ?_, fun hw v => ?_, fun hw s hs hne => ?_⟩
  · obtain ⟨a, b, hab⟩ := len_word "compatible".toList _ _ rfl len_compatible h
    have n1 : "compatible".toList ≠ "bell".toList := by decide
    have n2 : "compatible".toList ≠ "century".toList := by decide
    by_cases ht : lower t ∈ ["prompt".toList, "noprompt".toList]
    · simp only [setCmd, query, hw, hab, newSetting, if_neg n1, if_neg n2, setCompatible, setSwitch,
        if_neg (not_not_intro hs), if_neg (not_not_intro ht), setAt]
      exact ⟨rfl, rfl, fun _ => rfl, fun h => absurd ht h⟩
    · simp only [setCmd, query, hw, hab, newSetting, if_neg n1, if_neg n2, setCompatible, setSwitch,
        if_neg (not_not_intro hs), if_pos ht, setAt]
      exact ⟨rfl, rfl, fun h => absurd h ht, fun _ => rfl⟩
  · obtain ⟨a, b, hab⟩ := len_word "notify".toList _ _ rfl len_notify h
    have n1 : "notify".toList ≠ "bell".toList := by decide
    have n2 : "notify".toList ≠ "century".toList := by decide
    have n3 : "notify".toList ≠ "compatible".toList := by decide
    simp only [setCmd, query, hw, hab, newSetting, if_neg n1, if_neg n2, if_neg n3, setNotify, setAt]
    exact ⟨rfl, rfl⟩
  · obtain ⟨a, b, hab⟩ := (len_run h).1
    have hs' : lower s ∈ ["to".toList, "on".toList, "off".toList] := by rw [hs]; exact List.mem_cons_self
    simp only [setCmd, query, hw, hab, newSetting, setBell, if_neg (not_not_intro hs'), if_neg hne, setAt]
    exact ⟨rfl, rfl, rfl⟩

example :
    query (setCmd initial "compatible".toList [.str "ON".toList, .str "NOPROMPT".toList] {}).1
        "compatible".toList 1 = .ok (.str "PROMPT".toList)
    ∧ query (setCmd initial "compatible".toList [.str "ON".toList, .str "junk".toList] {}).1
        "compatible".toList 1 = .ok (.str "JUNK".toList)
    ∧ query (setCmd initial "notify".toList [.str "junk".toList] {}).1 "notify".toList 0
        = .ok (.str "junk".toList)
    ∧ query (setCmd initial "bell".toList [.str "to".toList, .str "a.wav".toList] {}).1 "bell".toList 0
        = .ok (.str "TO".toList) := by decide

/-- After every history, SET BELL ON|OFF reads back and keeps the sound; SET BELL TO reads back as
the second value and keeps ON or OFF. -/
theorem C20_bell (h : List Cmd) (word s : Str) (v : Val) (rest : List Val) (kw : Kw) (hw : lower word = "bell".toList) :
    (lower s ∈ ["on".toList, "off".toList] →
      let r := setCmd (run initial h) word (.str s :: rest) kw
      r.2 = none ∧ query r.1 word 0 = .ok (.str (upper s)) ∧ query r.1 word 1 = query (run initial h) word 1) ∧
    (let r := setCmd (run initial h) word (.str "TO".toList :: v :: rest) kw;
      r.2 = none ∧ query r.1 word 1 = .ok v ∧ query r.1 word 0 = query (run initial h) word 0) ∧
    (let r := setCmd (run initial h) word [.str "TO".toList] kw;
      r.2 = none ∧ query r.1 word 1 = .ok (.str []) ∧ query r.1 word 0 = query (run initial h) word 0) := by
  obtain ⟨a, b, hab⟩ := (len_run h).1
  have hto : lower "TO".toList ∈ ["to".toList, "on".toList, "off".toList] := by decide
  refine ⟨fun hs => ?_, ?_, ?_⟩
  · have hs' : lower s ∈ ["to".toList, "on".toList, "off".toList] := List.mem_cons_of_mem _ hs
    have hne : s ≠ "TO".toList := by
      rintro rfl
      revert hs
      decide
    simp only [setCmd, query, hw, hab, newSetting, setBell, if_neg (not_not_intro hs'), if_neg hne, setAt]
    exact ⟨rfl, rfl, rfl⟩
  · simp only [setCmd, query, hw, hab, newSetting, setBell, if_neg (not_not_intro hto), setAt]
    exact ⟨rfl, rfl, rfl⟩
  · simp only [setCmd, query, hw, hab, newSetting, setBell, if_neg (not_not_intro hto), setAt]
    exact ⟨rfl, rfl, rfl⟩

example : lower "Bell".toList = "bell".toList ∧
    query (setCmd (run initial [("bell".toList, [.str "off".toList], {})]) "bell".toList [.str "TO".toList, .str "a.wav".toList] {}).1 "bell".toList 0
      = .ok (.str "OFF".toList) := by decide

/-- After every history, SET CENTURY TO century ROLLOVER year reads back as the second and third
value and keeps ON or OFF; ON and OFF keep both. -/
theorem C20_century (h : List Cmd) (word : Str) (c r v : Val) (rest : List Val) (hw : lower word = "century".toList) :
    (let x := setCmd (run initial h) word [] { century := some c, rollover := some r };
      x.2 = none ∧ query x.1 word 1 = .ok c ∧ query x.1 word 2 = .ok r ∧ query x.1 word 0 = query (run initial h) word 0) ∧
    (let x := setCmd (run initial h) word [] { century := some c };
      x.2 = none ∧ query x.1 word 1 = .ok c ∧ query x.1 word 2 = query (run initial h) word 2) ∧
    (let x := setCmd (run initial h) word (v :: rest) {};
      x.2 = none ∧ query x.1 word 0 = .ok v ∧ query x.1 word 1 = query (run initial h) word 1 ∧
        query x.1 word 2 = query (run initial h) word 2) := by
  obtain ⟨a, b, d, e, hab⟩ := (len_run h).2
  have hne : "century".toList ≠ "bell".toList := by decide
  refine ⟨?_, ?_, ?_⟩ <;>
    simp only [setCmd, query, hw, hab, newSetting, if_neg hne, setCentury, setIf, setAt, List.head?]
  · exact ⟨rfl, rfl, rfl, rfl⟩
  · exact ⟨rfl, rfl, rfl⟩
  · exact ⟨rfl, rfl, rfl, rfl⟩

example : lower "Century".toList = "century".toList ∧
    query (setCmd (run initial []) "century".toList [] { century := some (.int 20), rollover := some (.int 50) }).1 "century".toList 2
      = .ok (.int 50) := by decide

/-! ## C63 -/

/-- The words for which the converter emits a call of `vfpfunc.set` although the run-time library
has no such setting (vfp2py_convert_visitor.py:1791-1883). -/
def unknownWords : List Str :=
  ["printer", "typeahead", "exclusive", "tableprompt", "classlib", "sysmenu", "date", "clock",
    "memowidth", "library", "filter", "order", "udfparms"].map String.toList

/-- SET with one of these words raises KeyError, after every history and with every value. -/
theorem C63_set_word_fails (h : List Cmd) (w : Str) (hw : w ∈ unknownWords) (args : List Val) (kw : Kw) :
    setCmd (run initial h) w args kw = (run initial h, some .keyError) := by
  have key : ∀ w ∈ unknownWords, lower w = w ∧ initial w = none := by decide
  obtain ⟨h1, h2⟩ := key w hw
  unfold setCmd
  rw [h1, keys_run h w h2]

/-- The words the converter knows and the library too, apart from SET PROCEDURE. -/
def knownWords : List Str := switchWords ++ ["bell", "century", "compatible", "notify", "refresh", "index"].map String.toList

/-- These are never rejected as unknown. -/
theorem C63_known_words_partial (h : List Cmd) (w : Str) (hw : w ∈ knownWords) (args : List Val)
    (kw : Kw) : (setCmd (run initial h) w args kw).2 ≠ some .keyError := by
  have keep : ∀ (h : List Cmd) (st : State), (∃ s, st (lower w) = some (some s)) →
      ∃ s, run st h (lower w) = some (some s) := by
    intro h
    induction h with
    | nil => intro st hs; exact hs
    | cons c h ih =>
      intro st hs
      apply ih
      obtain ⟨s, hs⟩ := hs
      show ∃ s, (setCmd st c.1 c.2.1 c.2.2).1 (lower w) = some (some s)
      unfold setCmd
      split
      · exact ⟨s, hs⟩
      · exact ⟨s, hs⟩
      · by_cases e : lower w = lower c.1
        · exact ⟨_, if_pos e⟩
        · exact ⟨s, by simp [e, hs]⟩
  have hini : ∃ s, initial (lower w) = some (some s) := by
    have : ∀ w ∈ knownWords, ∃ s, initial (lower w) = some (some s) := by
      intro w hw
      have : ∀ w ∈ knownWords, (match initial (lower w) with
        | some (some _) => true
        | _ => false) = true := by decide
      have := this w hw
      split at this
      · exact ⟨_, by assumption⟩
      · cases this
    exact this w hw
  obtain ⟨s, hs⟩ := keep h _ hini
  have sw : ∀ s args, setSwitch s args ≠ .error .keyError := by
    intro s args; unfold setSwitch setAt; repeat' split
    all_goals simp
  have sa : ∀ s i v, setAt s i v ≠ .error .keyError := by
    intro s i v; unfold setAt; split <;> simp
  have si : ∀ s i v, setIf s i v ≠ .error .keyError := by
    intro s i v; unfold setIf; split
    · simp
    · exact sa _ _ _
  have sb : ∀ s args, setBell s args ≠ .error .keyError := by
    intro s args; unfold setBell; repeat' split
    all_goals first | exact sa _ _ _ | simp
  have sc : ∀ s args kw, setCentury s args kw ≠ .error .keyError := by
    intro s args kw; unfold setCentury
    split
    · rename_i e h; rintro ⟨⟩; exact si _ _ _ h
    · split
      · rename_i e h; rintro ⟨⟩; exact si _ _ _ h
      · exact si _ _ _
  have sn : ∀ s args kw, setNotify s args kw ≠ .error .keyError := by
    intro s args kw; unfold setNotify; repeat' split
    all_goals first | exact sa _ _ _ | simp
  have sco : ∀ s args, (setCompatible s args).2 ≠ some .keyError := by
    intro s args; unfold setCompatible
    split
    · rename_i e h; have := sw s args; rw [h] at this; intro e'; simp at e'; exact this (by rw [e'])
    · repeat' split
      all_goals first
        | (rename_i h; rintro ⟨⟩; exact sa _ _ _ h)
        | simp
  have lift : ∀ (r : Except Err (List Val)), r ≠ .error .keyError →
      (match r with
        | .ok s => (s, none)
        | .error e => (s, some e)).2 ≠ some Err.keyError := by
    intro r hr
    cases r with
    | ok s => simp
    | error e => intro h; simp at h; exact hr (by rw [h])
  unfold setCmd
  rw [hs]
  simp only
  unfold newSetting
  simp only
  repeat' split
  all_goals first
    | exact sco _ _
    | (rename_i e h; simp only [ne_eq, Option.some.injEq]; rintro rfl
       first
        | exact sb _ _ h
        | exact sc _ _ _ h
        | exact sn _ _ _ h
        | exact sw _ _ h)
    | simp

example : "exact".toList ∈ knownWords := by decide

/-! ## C19 -/

namespace SettingsSpec

/-- Leap years. -/
def Leap (y : Int) : Prop := y % 4 = 0 ∧ (y % 100 ≠ 0 ∨ y % 400 = 0)

instance (y : Int) : Decidable (Leap y) := inferInstanceAs (Decidable (_ ∧ _))

/-- The days of a year before a month. -/
def daysBefore (y : Int) : Nat → Int
  | 0 => 0
  | 1 => 0
  | m + 1 => daysBefore y m + (if m = 2 then (if Leap y then 29 else 28) else if m = 4 ∨ m = 6 ∨ m = 9 ∨ m = 11 then 30 else 31)

/-- The number of a day, 1 January of year 1 being day 1. -/
def dayNumber (y : Int) (m : Nat) (d : Int) : Int :=
  365 * (y - 1) + (y - 1) / 4 - (y - 1) / 100 + (y - 1) / 400 + daysBefore y m + d

/-- Zeller's congruence: 0 is Saturday; January and February belong to the year before. -/
def zeller (y : Int) (m : Nat) (d : Int) : Int :=
  let y' := if m ≤ 2 then y - 1 else y
  let m' : Int := if m ≤ 2 then m + 12 else m
  (d + 13 * (m' + 1) / 5 + y' + y' / 4 - y' / 100 + y' / 400) % 7

end SettingsSpec
open SettingsSpec

theorem SettingsAux.leap_cases (y : Int) :
    (Leap y ∧ y / 4 - y / 100 + y / 400 = (y - 1) / 4 - (y - 1) / 100 + (y - 1) / 400 + 1) ∨
    (¬ Leap y ∧ y / 4 - y / 100 + y / 400 = (y - 1) / 4 - (y - 1) / 100 + (y - 1) / 400) := by
  have h4 : (y % 4 = 0 ∧ y / 4 = (y - 1) / 4 + 1) ∨ (y % 4 ≠ 0 ∧ y / 4 = (y - 1) / 4) := by omega
  have h100 : (y % 100 = 0 ∧ y / 100 = (y - 1) / 100 + 1) ∨ (y % 100 ≠ 0 ∧ y / 100 = (y - 1) / 100) := by omega
  have h400 : (y % 400 = 0 ∧ y / 400 = (y - 1) / 400 + 1) ∨ (y % 400 ≠ 0 ∧ y / 400 = (y - 1) / 400) := by omega
  have a : y % 100 = 0 → y % 4 = 0 := by omega
  have b : y % 400 = 0 → y % 100 = 0 := by omega
  unfold Leap
  generalize y / 4 = p1 at *
  generalize y / 100 = p2 at *
  generalize y / 400 = p3 at *
  generalize (y - 1) / 4 = q1 at *
  generalize (y - 1) / 100 = q2 at *
  generalize (y - 1) / 400 = q3 at *
  generalize y % 4 = r1 at *
  generalize y % 100 = r2 at *
  generalize y % 400 = r3 at *
  omega

/-- DOW without a setting is the day of the week of the calendar, by Zeller's congruence. -/
theorem C19_calendar (y : Int) (m : Nat) (d : Int) (hm : 1 ≤ m ∧ m ≤ 12) :
    dowFix (weekdayOf (dayNumber y m d)) 0 = (zeller y m d + 6) % 7 + 1 := by
  have hl := SettingsAux.leap_cases y
  obtain ⟨h1, h2⟩ := hm
  have : m = 1 ∨ m = 2 ∨ m = 3 ∨ m = 4 ∨ m = 5 ∨ m = 6 ∨ m = 7 ∨ m = 8 ∨ m = 9 ∨ m = 10 ∨ m = 11 ∨ m = 12 := by omega
  unfold dowFix weekdayOf dayNumber zeller
  generalize hA : (y - 1) / 4 = A at *
  generalize hB : (y - 1) / 100 = B at *
  generalize hC : (y - 1) / 400 = C at *
  generalize hA' : y / 4 = A' at *
  generalize hB' : y / 100 = B' at *
  generalize hC' : y / 400 = C' at *

  rcases hl with ⟨hl, e⟩ | ⟨hl, e⟩ <;>
  rcases this with rfl | rfl | rfl | rfl | rfl | rfl | rfl | rfl | rfl | rfl | rfl | rfl <;>
  simp [daysBefore, hl] <;> omega

/-- 16 November 2026 is a Monday. -/
example : dayNumber 2026 11 16 = 739936 ∧ dowFix (weekdayOf 739936) 0 = 2 ∧ zeller 2026 11 16 = 2 := by decide

/-- DOW is in 1..7 for every date and first-day setting. -/
theorem C19_dow_range (n firstday : Int) :
    1 ≤ dowFix (weekdayOf n) firstday ∧ dowFix (weekdayOf n) firstday ≤ 7 := by
  unfold dowFix; omega

example : dowFix (weekdayOf 738521) 4 = 5 := by decide

/-- It is 1 exactly on the first day of the week: day `f` of the week that starts on Sunday
(1 = Sunday, ..., 7 = Saturday); no setting or 0 means Sunday. -/
theorem C19_dow_first (n f : Int) (h1 : 1 ≤ f) (h7 : f ≤ 7) :
    (dowFix (weekdayOf n) f = 1 ↔ weekdayOf n = (f + 5) % 7)
    ∧ dowFix (weekdayOf n) 0 = dowFix (weekdayOf n) 1 := by
  have hf : f ≠ 0 := by omega
  unfold dowFix weekdayOf
  rw [if_neg hf]
  constructor
  · constructor <;> intro h <;> omega
  · simp

example : weekdayOf 738522 = (2 + 5) % 7 ∧ dowFix (weekdayOf 738522) 2 = 1 := by decide

/-- From one day to the next it grows by one, and starts again after 7. -/
theorem C19_dow_next (n firstday : Int) :
    dowFix (weekdayOf (n + 1)) firstday = dowFix (weekdayOf n) firstday % 7 + 1 := by
  unfold dowFix weekdayOf
  generalize (if firstday = 0 then (1 : Int) else firstday) = f
  omega

/-- Sunday 2023-01-01 has ordinal 738521. -/
example : weekdayOf 738521 = 6 ∧ dowFix (weekdayOf 738521) 1 = 1 ∧ dowFix (weekdayOf 738521) 2 = 7 := by
  decide

/-- QUARTER is in 1..4 for every date; an empty date gives 0. -/
theorem C19_quarter_range (m s : Int) :
    1 ≤ quarter (some m) s ∧ quarter (some m) s ≤ 4 ∧ quarter none s = 0 := by
  refine ⟨?_, ?_, rfl⟩ <;> simp only [quarter] <;> omega

example : quarter (some 12) 1 = 4 ∧ quarter (some 1) 4 = 4 := by decide

/-- The month that comes `k` months after the start month is in quarter `k / 3 + 1`, also across
the end of the year. -/
theorem C19_quarter_counts (m s k : Int) (h0 : 0 ≤ k) (h12 : k < 12) (h : (m - s - k) % 12 = 0) :
    quarter (some m) s = k / 3 + 1 := by
  unfold quarter; simp only; omega

example : (2 - 11 - 3 : Int) % 12 = 0 ∧ quarter (some 2) 11 = 2 := by decide

end Props
