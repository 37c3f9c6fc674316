import Verif.Model.Lists
/-!
# C152: what combo boxes, list boxes and grids show
-/
namespace Props

namespace ListsSpec
open Model.Lists (Str Op Event Val Table)

/-- A combo box as the user knows it: the items, the position of the one shown, and the events so far with the
text that was shown when they happened. -/
structure Box where
  items : List Str
  at_ : Option Nat
  events : List (Event × Str)

/-- The text shown. -/
def Box.shown (b : Box) : Str :=
  match b.at_ with
  | some i => match b.items[i]? with
    | some t => t
    | none => []
  | none => []

/-- The first item that is the text in capital or small letters. -/
def position (v : Str) : List Str → Option Nat
  | [] => none
  | t :: ts => if t.map Char.toLower = v.map Char.toLower then some 0 else (position v ts).map (· + 1)

/-- ADDITEM shows nothing else than before; assigning VALUE shows the item and is a ProgrammaticChange; picking
another item is an InteractiveChange. -/
def step (b : Box) : Op → Box
  | .add v => { b with items := b.items ++ [v] }
  | .assign v =>
    let b' := { b with at_ := position v b.items }
    { b' with events := b'.events ++ [(.programmaticChange, b'.shown)] }
  | .pick i =>
    if i < b.items.length then
      let b' := { b with at_ := some i }
      if b.at_ = some i then b else { b' with events := b'.events ++ [(.interactiveChange, b'.shown)] }
    else b

/-- A user picks items that are there. -/
def Possible : Box → List Op → Prop
  | _, [] => True
  | b, .pick i :: ops => i < b.items.length ∧ Possible (step b (.pick i)) ops
  | b, o :: ops => Possible (step b o) ops

/-- The text that stands for a value in a list, where it is beyond doubt. -/
def text : Val → Option Str
  | .text s => some s
  | .int n => some (toString n).toList
  | _ => none

/-- Every record has a value for each field, and there is a field. -/
def WF (t : Table) : Prop := t.names ≠ [] ∧ ∀ r ∈ t.records, r.length = t.names.length

/-- The grid shows the table: its fields, a row for each record in order, the mark at the current record. -/
structure Shows (g : Model.Lists.Grid) (t : Table) : Prop where
  rows : g.rows = t.records.length
  fields : g.horizontal = t.names ∧ g.cols = t.names.length
  cells : ∀ (i j : Nat) r v s, t.records[i]? = some r → r[j]? = some v → text v = some s → g.cell i j = some s
  nothingElse : ∀ i j, t.records.length ≤ i ∨ t.names.length ≤ j → g.cell i j = none
  marks : g.vertical.length = t.records.length ∧
    ∀ i < t.records.length, (g.vertical[i]? = some ['>'] ↔ t.current = some i)

/-- The list shows the first field of each record. -/
def Lists (items : List Str) (t : Table) : Prop :=
  items.length = t.records.length ∧
  ∀ (i : Nat) v vs s, t.records[i]? = some (v :: vs) → text v = some s → items[i]? = some s

end ListsSpec

namespace ListsAux
open Model.Lists ListsSpec

/-- What holds for every combo box. -/
structure Inv (c : Combo) : Prop where
  range : ∀ i, c.index = some i → i < c.items.length
  free : c.blocked = false
  connected : c.connected = true

def abs (c : Combo) : Box := ⟨c.items, c.index, c.log⟩

theorem position_eq (v : Str) (l : List Str) :
    (l.findIdx? fun t => decide (t.map Char.toLower = v.map Char.toLower)) = position v l := by
  induction l with
  | nil => rfl
  | cons t ts ih => rw [List.findIdx?_cons, ih]; simp only [position, decide_eq_true_eq]

theorem position_lt {v : Str} {l : List Str} {i : Nat} (h : position v l = some i) : i < l.length := by
  induction l generalizing i with
  | nil => simp [position] at h
  | cons t ts ih =>
    simp only [position] at h
    split at h
    · cases h; simp
    · cases hp : position v ts with
      | none => rw [hp] at h; simp at h
      | some k => rw [hp] at h; have := ih hp; simp at h ⊢; omega

theorem shown_eq (c : Combo) : c.currentText = (abs c).shown := by
  unfold Combo.currentText abs Box.shown
  cases c.index with
  | none => rfl
  | some i => simp only [Option.bind]; cases c.items[i]? <;> rfl

theorem filter_id {x : Option Nat} {n : Nat} (h : ∀ i, x = some i → i < n) : x.filter (fun k => decide (k < n)) = x := by
  cases x with
  | none => rfl
  | some i => simp [h i rfl]

theorem set_blocked (c : Combo) (i : Option Nat) (h : c.blocked = true) :
    c.setCurrentIndex i = { c with index := i.filter fun k => decide (k < c.items.length) } := by
  simp [Combo.setCurrentIndex, h]

theorem set_in (c : Combo) (i : Option Nat) (h : c.blocked = true) (hr : ∀ k, i = some k → k < c.items.length) :
    c.setCurrentIndex i = { c with index := i } := by
  rw [set_blocked c i h, filter_id hr]

theorem set_free (c : Combo) (i : Nat) (hb : c.blocked = false) (hc : c.connected = true) (hi : i < c.items.length) :
    c.setCurrentIndex (some i) = { c with
      index := some i
      log := c.log ++ if c.index = some i then [] else [(.interactiveChange, Box.shown ⟨c.items, some i, c.log⟩)] } := by
  have hf : (some i : Option Nat).filter (fun k => decide (k < c.items.length)) = some i := by simp [hi]
  simp only [Combo.setCurrentIndex, hf, hb, hc, shown_eq, abs, and_true]
  by_cases he : c.index = some i
  · rw [if_neg (by simp [he]), if_pos he]; simp [hb, hc]
  · rw [if_pos he, if_neg he]

theorem addItem_blocked (c : Combo) (v : Str) (h : c.blocked = true) :
    ∃ j, c.addItem v = { c with items := c.items ++ [v], index := j } := by
  unfold Combo.addItem
  split
  · exact ⟨_, set_blocked _ _ h⟩
  · exact ⟨c.index, rfl⟩

theorem add_sim {c : Combo} (h : Inv c) (v : Str) : Inv (c.additem v) ∧ abs (c.additem v) = step (abs c) (.add v) := by
  have hr : ∀ i, c.index = some i → i < (c.items ++ [v]).length := fun i hi => by
    have := h.range i hi; simp; omega
  have e : c.additem v = { c with items := c.items ++ [v], blocked := false } := by
    obtain ⟨j, hj⟩ := addItem_blocked (c.blockSignals true) v rfl
    simp only [Combo.additem, hj]
    rw [set_in _ _ rfl (by exact hr)]
    rfl
  rw [e]
  exact ⟨⟨hr, rfl, h.connected⟩, rfl⟩

theorem assign_sim {c : Combo} (h : Inv c) (v : Str) :
    Inv (c.setValue v) ∧ abs (c.setValue v) = step (abs c) (.assign v) := by
  have hr : ∀ i, position v c.items = some i → i < c.items.length := fun i hi => position_lt hi
  have e : c.setValue v = { c with
      index := position v c.items, blocked := false,
      log := c.log ++ [(.programmaticChange, (Box.shown ⟨c.items, position v c.items, c.log⟩))] } := by
    simp only [Combo.setValue]
    rw [set_in _ _ rfl (by rw [Combo.findText, position_eq]; exact hr)]
    simp only [Combo.blockSignals, Combo.findText, position_eq, shown_eq, abs]
  rw [e]
  exact ⟨⟨hr, rfl, h.connected⟩, rfl⟩

theorem pick_sim {c : Combo} (h : Inv c) {i : Nat} (hi : i < c.items.length) :
    Inv (c.pick i) ∧ abs (c.pick i) = step (abs c) (.pick i) := by
  rw [Combo.pick, set_free c i h.free h.connected hi]
  refine ⟨⟨fun k hk => ?_, h.free, h.connected⟩, ?_⟩
  · cases hk; exact hi
  · simp only [abs, step, hi, if_true]
    by_cases he : c.index = some i
    · simp [he]
    · simp [he]

theorem run_sim : ∀ (ops : List Op) {c : Combo}, Inv c → Possible (abs c) ops →
    Inv (ops.foldl Combo.run c) ∧ abs (ops.foldl Combo.run c) = ops.foldl step (abs c)
  | [], _, h, _ => ⟨h, rfl⟩
  | .add v :: ops, c, h, hp => by
    have := add_sim h v
    have hp' : Possible (abs (c.additem v)) ops := by rw [this.2]; exact hp
    have r := run_sim ops this.1 hp'
    exact ⟨r.1, r.2.trans (by rw [this.2]; rfl)⟩
  | .assign v :: ops, c, h, hp => by
    have := assign_sim h v
    have hp' : Possible (abs (c.setValue v)) ops := by rw [this.2]; exact hp
    have r := run_sim ops this.1 hp'
    exact ⟨r.1, r.2.trans (by rw [this.2]; rfl)⟩
  | .pick i :: ops, c, h, hp => by
    have := pick_sim h hp.1
    have hp' : Possible (abs (c.pick i)) ops := by rw [this.2]; exact hp.2
    have r := run_sim ops this.1 hp'
    exact ⟨r.1, r.2.trans (by rw [this.2]; rfl)⟩

theorem new_inv : Inv Combo.new := ⟨fun _ h => (by cases h), rfl, rfl⟩

/-! ### Tables -/

theorem foldl_items (rs : List (List Val)) (l : ListBox) :
    rs.foldl (fun l r => { l with items := l.items ++ [firstText r] }) l = { l with items := l.items ++ rs.map firstText } := by
  induction rs generalizing l with
  | nil => simp
  | cons r rs ih => simp [ih]

theorem text_str {v : Val} {s : Str} (h : text v = some s) : v.str = s := by
  cases v <;> simp [text] at h <;> simp [Val.str, h]

theorem setItem_cell (g : Grid) (i j : Nat) (s : Str) (a b : Nat) :
    (g.setItem i j s).cell a b = if i < g.rows ∧ j < g.cols ∧ a = i ∧ b = j then some s else g.cell a b := by
  unfold Grid.setItem
  split
  · rename_i h; simp [h]
  · rename_i h
    rw [if_neg]; exact fun h' => h ⟨h'.1, h'.2.1⟩

theorem setItem_same (g : Grid) (i j : Nat) (s : Str) :
    (g.setItem i j s).rows = g.rows ∧ (g.setItem i j s).cols = g.cols ∧ (g.setItem i j s).source = g.source ∧
    (g.setItem i j s).vertical = g.vertical ∧ (g.setItem i j s).horizontal = g.horizontal := by
  unfold Grid.setItem; split <;> simp

theorem fillRow_same (i : Nat) (vs : List Val) : ∀ (g : Grid) (j : Nat),
    (g.fillRow i j vs).rows = g.rows ∧ (g.fillRow i j vs).cols = g.cols ∧ (g.fillRow i j vs).source = g.source ∧
    (g.fillRow i j vs).vertical = g.vertical ∧ (g.fillRow i j vs).horizontal = g.horizontal := by
  induction vs with
  | nil => intro g j; simp [Grid.fillRow]
  | cons v vs ih => intro g j; simp only [Grid.fillRow, ih, setItem_same, and_self]

theorem fillRow_cell (i : Nat) (vs : List Val) : ∀ (g : Grid) (j a b : Nat), i < g.rows → j + vs.length ≤ g.cols →
    (g.fillRow i j vs).cell a b = if a = i ∧ j ≤ b ∧ b < j + vs.length then (vs[b - j]?).map Val.str else g.cell a b := by
  induction vs with
  | nil => intro g j a b _ _; simp only [Grid.fillRow, List.length_nil]; rw [if_neg (by omega)]
  | cons v vs ih =>
    intro g j a b hr hc
    simp only [List.length_cons] at hc
    have hs := setItem_same g i j v.str
    simp only [Grid.fillRow, List.length_cons]
    rw [ih _ _ _ _ (by rw [hs.1]; exact hr) (by rw [hs.2.1]; omega), setItem_cell]
    by_cases ha : a = i
    · by_cases hb : b = j
      · subst hb
        rw [if_neg (by omega), if_pos ⟨hr, by omega, ha, rfl⟩, if_pos ⟨ha, Nat.le_refl _, by omega⟩]
        simp
      · by_cases hb' : j + 1 ≤ b ∧ b < j + 1 + vs.length
        · rw [if_pos ⟨ha, hb'⟩, if_pos ⟨ha, by omega, by omega⟩, show b - j = (b - (j + 1)) + 1 by omega, List.getElem?_cons_succ]
        · rw [if_neg (fun h => hb' h.2), if_neg (by omega), if_neg (by omega)]
    · rw [if_neg (fun h => ha h.1), if_neg (fun h => ha h.2.2.1), if_neg (fun h => ha h.1)]

theorem fill_same (rs : List (List Val)) : ∀ (g : Grid) (i : Nat),
    (g.fill i rs).rows = g.rows ∧ (g.fill i rs).cols = g.cols ∧ (g.fill i rs).source = g.source ∧
    (g.fill i rs).vertical = g.vertical ∧ (g.fill i rs).horizontal = g.horizontal := by
  induction rs with
  | nil => intro g i; simp [Grid.fill]
  | cons r rs ih => intro g i; simp only [Grid.fill, ih, fillRow_same, and_self]

theorem fill_cell (rs : List (List Val)) : ∀ (g : Grid) (i a b : Nat), i + rs.length ≤ g.rows → (∀ r ∈ rs, r.length = g.cols) →
    (g.fill i rs).cell a b =
      if i ≤ a ∧ a < i + rs.length ∧ b < g.cols then (rs[a - i]?).bind fun r => (r[b]?).map Val.str else g.cell a b := by
  induction rs with
  | nil => intro g i a b _ _; simp only [Grid.fill, List.length_nil]; rw [if_neg (by omega)]
  | cons r rs ih =>
    intro g i a b hr hc
    simp only [List.length_cons] at hr
    have hs := fillRow_same i r g 0
    have hl := hc r (by simp)
    simp only [Grid.fill, List.length_cons]
    rw [ih _ _ _ _ (by rw [hs.1]; omega) (by rw [hs.2.1]; intro x hx; exact hc x (by simp [hx])), hs.2.1,
      fillRow_cell i r g 0 a b (by omega) (by omega)]
    by_cases ha : a = i
    · subst ha
      rw [if_neg (by omega)]
      by_cases hb : b < g.cols
      · rw [if_pos ⟨rfl, by omega, by omega⟩, if_pos ⟨Nat.le_refl _, by omega, hb⟩]; simp
      · rw [if_neg (by omega), if_neg (by omega)]
    · rw [if_neg (c := a = i ∧ _) (fun h => ha h.1)]
      by_cases h' : i + 1 ≤ a ∧ a < i + 1 + rs.length ∧ b < g.cols
      · rw [if_pos h', if_pos ⟨by omega, by omega, h'.2.2⟩, show a - i = (a - (i + 1)) + 1 by omega, List.getElem?_cons_succ]
      · rw [if_neg h', if_neg (by omega)]

theorem display_shows (g : Grid) {t : Table} (h : WF t) : Shows (g.display t) t ∧ (g.display t).source = g.source := by
  have hs := fill_same t.records
    { (g.setColumnCount t.names.length).setRowCount t.records.length with vertical := Model.Lists.marks t, horizontal := t.names } 0
  have hc := fun a b => fill_cell t.records
    { (g.setColumnCount t.names.length).setRowCount t.records.length with vertical := Model.Lists.marks t, horizontal := t.names } 0 a b
    (by simp [Grid.setRowCount]) (by simpa [Grid.setRowCount, Grid.setColumnCount] using h.2)
  refine ⟨⟨hs.1, ⟨hs.2.2.2.2, hs.2.1⟩, ?_, ?_, ?_, ?_⟩, hs.2.2.1⟩
  · intro i j r v s hr hv ht
    have hi := (List.getElem?_eq_some_iff.1 hr).1
    have hj := (List.getElem?_eq_some_iff.1 hv).1
    have hl := h.2 r (List.mem_of_getElem? hr)
    refine (hc i j).trans ?_
    rw [if_pos ⟨Nat.zero_le _, by omega, by simp [Grid.setRowCount, Grid.setColumnCount]; omega⟩]
    simp [hr, hv, text_str ht]
  · intro i j hij
    refine (hc i j).trans ?_
    have e1 : ((g.setColumnCount t.names.length).setRowCount t.records.length).cols = t.names.length := rfl
    rw [if_neg (fun h' => by have := h'.2.2; simp only [e1] at this; omega)]
    show (if i < t.records.length then if j < t.names.length then g.cell i j else none else none) = none
    rcases hij with hij | hij
    · rw [if_neg (by omega)]
    · rw [if_neg (c := j < _) (by omega)]; split <;> rfl
  · show (Grid.fill _ _ _).vertical.length = _
    rw [hs.2.2.2.1]; simp [Model.Lists.marks]
  · intro i hi
    show (Grid.fill _ _ _).vertical[i]? = _ ↔ _
    rw [hs.2.2.2.1]
    simp only [Model.Lists.marks, List.getElem?_map, List.getElem?_range hi, Option.map_some, Option.some.injEq]
    split
    · rename_i hcur; simp [hcur]
    · rename_i hcur; simp [hcur]

theorem lookup_goto (db : Db) (s : Str) (i : Nat) :
    (db.goto s i).lookup s = (db.lookup s).map fun t => { t with current := some i } := by
  unfold Db.goto
  cases hw : db.workarea s with
  | none => simp [Db.lookup, hw]
  | some w =>
    simp only [Db.lookup, hw]
    have : ({ db with areas := fun n => if n = w then (db.areas n).map fun t => { t with current := some i } else db.areas n } : Db).workarea s
        = some w := hw
    rw [this]; simp

theorem shows_inj {g : Grid} {t u : Table} (ht : Shows g t) (hu : Shows g u) :
    t.names = u.names ∧ t.records.length = u.records.length :=
  ⟨ht.fields.1.symm.trans hu.fields.1, ht.rows.symm.trans hu.rows⟩

end ListsAux

open Model.Lists ListsSpec ListsAux

/-- **C152.** Whatever is done with a combo box, by the program and by the user, it has the items, shows the text
and has had the events that the description in `ListsSpec.step` gives. -/
theorem C152_combo_partial (ops : List Op) (h : Possible ⟨[], none, []⟩ ops) :
    let c := ops.foldl Combo.run Combo.new
    let b := ops.foldl step ⟨[], none, []⟩
    c.items = b.items ∧ c.currentText = b.shown ∧ c.log = b.events := by
  have r := (run_sim ops new_inv h).2
  refine ⟨congrArg Box.items r, ?_, congrArg Box.events r⟩
  rw [shown_eq, r]; rfl

example : let c := [.add "Red".toList, .add "Blue".toList, .assign "BLUE".toList, .pick 0, .pick 0].foldl Combo.run Combo.new
    c.currentText = "Red".toList ∧
    c.log = [(.programmaticChange, "Blue".toList), (.interactiveChange, "Red".toList)] := by decide +kernel

/-- What the program does is never taken for the user: without `pick`, InteractiveChange is not called, and
ProgrammaticChange is called once for each assignment of VALUE. -/
theorem C152_program_events (ops : List Op) (h : ∀ i, Op.pick i ∉ ops) :
    let c := ops.foldl Combo.run Combo.new
    c.log.map (·.1) = (ops.filter fun o => match o with | .assign _ => true | _ => false).map fun _ => Event.programmaticChange := by
  have gen : ∀ (ops : List Op) (c : Combo), Inv c → (∀ i, Op.pick i ∉ ops) → (ops.foldl Combo.run c).log.map (·.1) =
      c.log.map (·.1) ++ (ops.filter fun o => match o with | .assign _ => true | _ => false).map fun _ => Event.programmaticChange := by
    intro ops
    induction ops with
    | nil => intro c _ _; simp
    | cons o ops ih =>
      intro c hc hp
      have hp' : ∀ i, Op.pick i ∉ ops := fun i hi => hp i (by simp [hi])
      cases o with
      | add v =>
        have s := add_sim hc v
        have e : (c.additem v).log = c.log := congrArg Box.events s.2
        simp only [List.foldl_cons, Combo.run]
        rw [ih _ s.1 hp', e]; simp
      | assign v =>
        have s := assign_sim hc v
        have e : (c.setValue v).log = _ := congrArg Box.events s.2
        simp only [List.foldl_cons, Combo.run]
        rw [ih _ s.1 hp', e]; simp [step, abs]
      | pick i => exact absurd (by simp) (hp i)
  simpa [Combo.new] using gen ops Combo.new new_inv h

example : ∀ i, Op.pick i ∉ [Op.add "a".toList, .assign "a".toList, .assign "b".toList] := by simp

/-- A text that is not among the items cannot be assigned: the box then shows nothing, so that a combo box
into which one can type loses what the program puts there. -/
theorem C152_new_text_fails (c : Combo) (v : Str) (hv : v ≠ [])
    (h : ∀ t ∈ c.items, t.map Char.toLower ≠ v.map Char.toLower) : (c.setValue v).currentText ≠ v := by
  have hp : position v c.items = none := by
    rw [← position_eq, List.findIdx?_eq_none_iff]
    intro t ht; simpa using h t ht
  have e : (c.setValue v).index = none := by
    simp only [Combo.setValue, Combo.findText, Combo.blockSignals, Combo.setCurrentIndex, position_eq, hp]
    simp
  intro he
  rw [Combo.currentText, e] at he
  exact hv he.symm

example : ∀ t ∈ ["Red".toList, "Blue".toList], t.map Char.toLower ≠ "Green".toList.map Char.toLower := by decide +kernel

/-- An empty list box with a `rowsource` lists the first fields of the records in order. -/
theorem C152_list_partial (l : ListBox) (db : Db) (s : Str) (t : Table) (hl : l.items = []) (ht : db.lookup s = some t) :
    (l.setRowsource db s).2 = true ∧ (l.setRowsource db s).1.source = s ∧ Lists (l.setRowsource db s).1.items t := by
  simp only [ListBox.setRowsource, ht, foldl_items, hl]
  refine ⟨trivial, trivial, by simp, ?_⟩
  intro i v vs s hr hs
  simp [hr, firstText, text_str hs]

/-- The tables of a demonstration. -/
def ListsDemo.people : Table :=
  ⟨["name".toList, "age".toList], [[.text "Ann".toList, .int 41], [.text "Bo".toList, .int 7]], some 1⟩
/-- A second table. -/
def ListsDemo.towns : Table := ⟨["town".toList], [[.text "Ulm".toList]], some 0⟩
/-- Both open, the second one selected. -/
def ListsDemo.db : Db :=
  ⟨fun n => if n = 0 then some ListsDemo.people else if n = 1 then some ListsDemo.towns else none,
   fun s => if s = "people".toList then some 0 else if s = "towns".toList then some 1 else none, 1⟩

example : ListsDemo.db.lookup "people".toList = some ListsDemo.people := rfl
example : (ListBox.setRowsource ⟨[], []⟩ ListsDemo.db "people".toList).1.items = ["Ann".toList, "Bo".toList] := by decide +kernel

/-- The rows of a new source come after those that are there: a list box that shows anything does not show
the new source. -/
theorem C152_list_again_fails (l : ListBox) (db : Db) (s : Str) (t : Table) (hl : l.items ≠ []) (ht : db.lookup s = some t) :
    ¬ Lists (l.setRowsource db s).1.items t := by
  simp only [ListBox.setRowsource, ht, foldl_items]
  intro h
  have := h.1
  simp only [List.length_append, List.length_map] at this
  exact hl (List.eq_nil_of_length_eq_zero (by omega))

example : ((ListBox.setRowsource ⟨[], []⟩ ListsDemo.db "people".toList).1.setRowsource ListsDemo.db "towns".toList).1.items
    = ["Ann".toList, "Bo".toList, "Ulm".toList] := by decide +kernel

/-- A list box that is created with a `rowsource` lists the records but does not know its source any more. -/
theorem C152_list_created_fails (db : Db) (s : Str) (l : ListBox) (hs : s ≠ []) (h : ListBox.new db (some s) = some l) :
    l.source ≠ s := by
  have : l.source = [] := by
    simp only [ListBox.new] at h
    split at h
    · cases h; rfl
    · cases h
  rw [this]; exact fun e => hs e.symm

example : ((ListBox.new ListsDemo.db (some "people".toList)).map fun l => (l.source, l.items)) =
    some ([], ["Ann".toList, "Bo".toList]) := by decide +kernel

/-- A grid whose `recordsource` is assigned shows that table, whatever it showed before. -/
theorem C152_grid_partial (g : Grid) (db : Db) (s : Str) (t : Table) (hw : WF t) (ht : db.lookup s = some t) :
    ∃ g', g.setRecordsource db s = some g' ∧ g'.source = s ∧ Shows g' t := by
  exact ⟨Grid.display { g with source := s } t, by simp only [Grid.setRecordsource, Grid.refresh, ht, Option.map_some],
    (display_shows _ hw).2, (display_shows _ hw).1⟩

example : WF ListsDemo.people := ⟨by decide, by decide⟩
example : ((Grid.empty.setRecordsource ListsDemo.db "people".toList).map fun g => (g.cell 1 0, g.cell 1 1, g.vertical)) =
    some (some "Bo".toList, some "7".toList, ["  ".toList, ">".toList]) := by decide +kernel

/-- REFRESH and the focus bring the grid up to date after any changes to the table. -/
theorem C152_refresh (g : Grid) (db : Db) (t : Table) (hw : WF t) (ht : db.lookup g.source = some t) :
    ∃ g', g.refresh db = some g' ∧ g'.source = g.source ∧ Shows g' t := by
  exact ⟨g.display t, by simp only [Grid.refresh, ht, Option.map_some], (display_shows _ hw).2, (display_shows _ hw).1⟩

example : ListsDemo.db.lookup ({ Grid.empty with source := "towns".toList } : Grid).source = some ListsDemo.towns ∧ WF ListsDemo.towns :=
  ⟨rfl, by decide, by decide⟩

/-- A click on a row makes its record the current one of the table shown, which the grid then marks; the
other work areas stay as they are. -/
theorem C152_click (g : Grid) (db : Db) (t : Table) (i : Nat) (hw : WF t) (ht : db.lookup g.source = some t) :
    ∃ g' db', g.click db i = some (g', db') ∧ db'.lookup g.source = some { t with current := some i } ∧
      Shows g' { t with current := some i } ∧ db'.current = db.current ∧
      ∀ w, db.workarea g.source ≠ some w → db'.areas w = db.areas w := by
  have hl := lookup_goto db g.source i
  rw [ht] at hl
  have hw' : WF { t with current := some i } := hw
  obtain ⟨g', hg, _, hsh⟩ := C152_refresh g (db.goto g.source i) _ hw' hl
  refine ⟨g', db.goto g.source i, by simp only [Grid.click, hg, Option.map_some], hl, hsh, ?_, ?_⟩
  · unfold Db.goto; split <;> rfl
  · intro w hne
    unfold Db.goto
    split
    · rename_i w' hw'
      show (if w = w' then _ else _) = _
      rw [if_neg]
      intro e; exact hne (by rw [hw', e])
    · rfl

example : (({ Grid.empty with source := "people".toList } : Grid).click ListsDemo.db 0).map (fun x => x.1.vertical) =
    some [">".toList, "  ".toList] := by decide +kernel

/-- A grid that is created with a `recordsource` forgets it: when it gets the focus it shows the table of the
current work area instead, if that has other fields or another number of records. -/
theorem C152_grid_created_fails (db db' : Db) (s : Str) (g : Grid) (t u : Table) (h : Grid.new db (some s) = some g)
    (ht : db'.lookup s = some t) (hu : db'.areas db'.current = some u) (hw : WF u)
    (hne : t.names ≠ u.names ∨ t.records.length ≠ u.records.length) :
    ∃ g', g.refresh db' = some g' ∧ Shows g' u ∧ ¬ Shows g' t := by
  have hs : g.source = [] := by
    simp only [Grid.new, Option.map_eq_some_iff] at h
    obtain ⟨g0, _, rfl⟩ := h
    rfl
  have hl : db'.lookup g.source = some u := by rw [hs]; simpa [Db.lookup, Db.workarea] using hu
  obtain ⟨g', h1, _, h3⟩ := C152_refresh g db' u hw hl
  refine ⟨g', h1, h3, fun h4 => ?_⟩
  have := shows_inj h4 h3
  rcases hne with hne | hne
  · exact hne this.1
  · exact hne this.2

example : ((Grid.new ListsDemo.db (some "people".toList)).bind fun g => (g.refresh ListsDemo.db).map fun g' => (g.cell 0 0, g'.cell 0 0)) =
    some (some "Ann".toList, some "Ulm".toList) := by decide +kernel

/-- Logical values and empty ones are shown in the way of Python, not of FoxPro. -/
theorem C152_values_fails (g : Grid) (db : Db) (s : Str) (t : Table) (i j : Nat) (r : List Val) (v : Val) (hw : WF t)
    (ht : db.lookup s = some t) (hr : t.records[i]? = some r) (hv : r[j]? = some v) (hn : ListsSpec.text v = none) :
    ∃ g', g.setRecordsource db s = some g' ∧
      (g'.cell i j = some "True".toList ∨ g'.cell i j = some "False".toList ∨ g'.cell i j = some "None".toList) := by
  refine ⟨Grid.display { g with source := s } t, by simp only [Grid.setRecordsource, Grid.refresh, ht, Option.map_some], ?_⟩
  have hi := (List.getElem?_eq_some_iff.1 hr).1
  have hj := (List.getElem?_eq_some_iff.1 hv).1
  have hl := hw.2 r (List.mem_of_getElem? hr)
  have hc : (Grid.display { g with source := s } t).cell i j = some v.str := by
    simp only [Grid.display]
    rw [fill_cell _ _ _ _ _ (by simp [Grid.setRowCount]) (by simpa [Grid.setRowCount, Grid.setColumnCount] using hw.2),
      if_pos ⟨Nat.zero_le _, by omega, by simp [Grid.setRowCount, Grid.setColumnCount]; omega⟩]
    simp [hr, hv]
  rw [hc]
  cases v with
  | text | int => cases hn
  | logical b => cases b <;> simp [Val.str]
  | none => simp [Val.str]

example : ListsSpec.text (.logical true) = none ∧ ListsSpec.text .none = none := ⟨rfl, rfl⟩

end Props
