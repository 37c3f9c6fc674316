import Verif.Model.SqlExec
import Verif.Props.CreateTable
import Verif.Props.Workareas
/-!
# C132: SQLEXEC
-/
namespace Props
open Model.Database Model.CreateTable Model.SqlExec

namespace SqlSpec

/-- A name of a cursor or column. -/
def Name (s : Str) : Prop := s ≠ [] ∧ ∀ c ∈ s, c.isAlphanum = true ∨ c = '_'

instance (s : Str) : Decidable (Name s) := by unfold Name; infer_instance

/-- The column of a cursor for a column of the result. -/
def columnOf (c : Info) : Column :=
  match c.type with
  | .bool => ⟨c.name, 'L', 0, 0⟩
  | .str => ⟨c.name, 'C', c.precision, 0⟩
  | _ => ⟨c.name, 'N', c.precision, c.scale⟩

/-- The open tables without the one of that name, if there is one. -/
def without {ρ : Type} (areas : List (Option (WS ρ))) (name : Str) : List (Option (WS ρ)) :=
  match findAlias areas name with
  | none => areas
  | some a => areas.set a none

end SqlSpec
open SqlSpec

variable {ρ : Type} [DecidableEq ρ]

namespace SqlAux
open CreateTableAux WorkareasAux

theorem name_plain {s : Str} (h : Name s) : Plain s := by
  refine ⟨h.1, fun hc => ?_, fun hc => ?_⟩
  · exact absurd (h.2 _ hc) (by decide)
  · exact absurd (h.2 _ hc) (by decide)

theorem spec_column (accepts : Char → Nat → Bool) (h : accepts 'N' 2 = true ∧ accepts 'C' 1 = true ∧ accepts 'L' 0 = true) (c : Info)
    (ht : c.type ≠ .other) (hn : Name c.name) (hl : c.name.length ≤ 10) : (spec c).bind (column accepts) = some (columnOf c) := by
  have hcl : Clean c.name := ⟨hn.1, fun x hx => alnum_clean (hn.2 x hx)⟩
  have hcol : ∀ t s, Model.CreateTable.column accepts (c.name ++ ' ' :: t :: s) =
        match numbers s with
        | none => none
        | some ns => if accepts t.toUpper ns.length = true then some ⟨c.name, t.toUpper, ns.headD 0, (ns.drop 1).headD 0⟩ else none := by
    intro t s
    have hd : (c.name ++ ' ' :: t :: s).drop (c.name.length + 1) = t :: s := by
      rw [← List.drop_drop, List.drop_left]; rfl
    simp only [Model.CreateTable.column, lstrip_clean hcl, take_name hcl, hd]
    cases numbers s with
    | none => rfl
    | some ns => simp [hcl.1]
  have h2 := numbers_read [c.precision, c.scale] (by simp)
  have h1 := numbers_read [c.precision] (by simp)
  simp only [List.map_cons, List.map_nil, join] at h1 h2
  have htake : c.name.take 10 = c.name := List.take_of_length_le hl
  cases hty : c.type with
  | other => exact absurd hty ht
  | bool =>
    simp only [spec, hty, htake, Option.bind_some, columnOf]
    have := hcol 'L' []
    simp only [numbers, List.length_nil] at this
    rw [show c.name ++ [' ', 'L'] = c.name ++ ' ' :: 'L' :: [] by rfl, this]
    simp [show Char.toUpper 'L' = 'L' by decide, h.2.2]
  | str =>
    simp only [spec, hty, htake, Option.bind_some, columnOf]
    have := hcol 'C' ('(' :: (Nat.toDigits 10 c.precision ++ [')']))
    rw [h1] at this
    rw [show c.name ++ [' ', 'C', '('] ++ Nat.toDigits 10 c.precision ++ [')'] = c.name ++ ' ' :: 'C' :: '(' :: (Nat.toDigits 10 c.precision ++ [')']) by simp, this]
    simp [show Char.toUpper 'C' = 'C' by decide, h.2.1]
  | int =>
    simp only [spec, hty, htake, Option.bind_some, columnOf]
    have := hcol 'N' ('(' :: (Nat.toDigits 10 c.precision ++ [',', ' '] ++ Nat.toDigits 10 c.scale ++ [')']))
    rw [h2] at this
    rw [show c.name ++ [' ', 'N', '('] ++ Nat.toDigits 10 c.precision ++ [',', ' '] ++ Nat.toDigits 10 c.scale ++ [')'] =
      c.name ++ ' ' :: 'N' :: '(' :: (Nat.toDigits 10 c.precision ++ [',', ' '] ++ Nat.toDigits 10 c.scale ++ [')']) by simp, this]
    simp [show Char.toUpper 'N' = 'N' by decide, h.1]
  | float =>
    simp only [spec, hty, htake, Option.bind_some, columnOf]
    have := hcol 'N' ('(' :: (Nat.toDigits 10 c.precision ++ [',', ' '] ++ Nat.toDigits 10 c.scale ++ [')']))
    rw [h2] at this
    rw [show c.name ++ [' ', 'N', '('] ++ Nat.toDigits 10 c.precision ++ [',', ' '] ++ Nat.toDigits 10 c.scale ++ [')'] =
      c.name ++ ' ' :: 'N' :: '(' :: (Nat.toDigits 10 c.precision ++ [',', ' '] ++ Nat.toDigits 10 c.scale ++ [')']) by simp, this]
    simp [show Char.toUpper 'N' = 'N' by decide, h.1]

theorem specs_columns {α β γ : Type} (f : α → Option β) (g : β → Option γ) (k : α → γ) : ∀ l : List α, (∀ x ∈ l, (f x).bind g = some (k x)) →
    ∃ ys, l.mapM f = some ys ∧ ys.mapM g = some (l.map k)
  | [], _ => ⟨[], rfl, rfl⟩
  | x :: l, h => by
    obtain ⟨ys, h1, h2⟩ := specs_columns f g k l (fun y hy => h y (by simp [hy]))
    obtain ⟨y, hy, hg⟩ := Option.bind_eq_some_iff.mp (h x (by simp))
    exact ⟨y :: ys, by simp [h1, hy], by simp [h2, hg]⟩

/-- The table of the cursor. -/
def IsCursor (name : Str) (t : WS ρ) : Prop := t.file = name ++ extension ∧ t.name = []

theorem ext_eq : extension = ".dbf".toList := rfl

theorem cursor_alias {name : Str} (hn : Name name) {t : WS ρ} (ht : IsCursor name t) : t.isAlias name = true := by
  have hp := name_plain hn
  obtain ⟨-, h2⟩ := absW_file hp (ht.1.trans (by rw [ext_eq]))
  simp only [WS.isAlias, h2, basename_plain (plain_lower hp).2.2]
  simp

/-- No open table answers to the name of the cursor or of its file. -/
def Unused (areas : List (Option (WS ρ))) (name : Str) : Prop :=
  ∀ t, some t ∈ areas → t.isAlias name = false ∧ t.isAlias (name ++ extension) = false

theorem find_cursor {areas : List (Option (WS ρ))} {name : Str} (hn : Name name) (hu : Unused areas name) {i : Nat} (hi : i < areas.length)
    {t : WS ρ} (ht : IsCursor name t) : findAlias (areas.set i (some t)) name = some i := by
  unfold findAlias
  rw [List.findIdx?_eq_some_iff_getElem]
  refine ⟨by simpa using hi, ?_, ?_⟩
  · simp [cursor_alias hn ht]
  · intro j hj
    have hne : i ≠ j := by omega
    rw [List.getElem_set_ne hne]
    cases he : areas[j] with
    | none => simp
    | some u =>
      have := (hu u (he ▸ List.getElem_mem _)).1
      simp [this]

theorem info_cursor {areas : List (Option (WS ρ))} {name : Str} (hn : Name name) (hu : Unused areas name) {i : Nat} (hi : i < areas.length)
    {t : WS ρ} (ht : IsCursor name t) (cur : Int) :
    getWorkarea ⟨areas.set i (some t), cur⟩ (.str name) = .ok (i : Int) ∧ tableInfo ⟨areas.set i (some t), cur⟩ (.str name) = .ok t ∧
      ∀ u, putInfo ⟨areas.set i (some t), cur⟩ (.str name) u = ⟨areas.set i (some u), cur⟩ := by
  have hw : getWorkarea ⟨areas.set i (some t), cur⟩ (.str name) = .ok (i : Int) := by
    obtain ⟨c, cs, rfl⟩ := List.exists_cons_of_ne_nil hn.1
    simp only [getWorkarea, find_cursor hn hu hi ht]
  refine ⟨hw, ?_, fun u => ?_⟩
  · simp only [tableInfo, hw]
    rw [Py.index_nat]
    simp [hi]
  · simp only [putInfo, hw, Model.Database.setIndex]
    rw [if_neg (by omega), if_pos (by simpa using hi)]
    simp

/-- Inserting the rows one by one. -/
theorem insert_rows {areas : List (Option (WS ρ))} {name : Str} (hn : Name name) (hu : Unused areas name) {i : Nat} (hi : i < areas.length)
    (fits : ρ → Bool) (cur : Int) : ∀ (rows : List ρ) (t : WS ρ), IsCursor name t → (∀ r ∈ rows, fits r = true) →
    ∃ u, insertRows fits name rows ⟨areas.set i (some t), cur⟩ = (⟨areas.set i (some u), cur⟩, none) ∧ IsCursor name u ∧ u.recs = t.recs ++ rows
  | [], t, ht, _ => ⟨t, rfl, ht, by simp⟩
  | r :: rows, t, ht, hf => by
    obtain ⟨-, h1, h2⟩ := info_cursor hn hu hi ht cur
    let t1 : WS ρ := { t with recs := t.recs ++ [r] }
    have ht1 : IsCursor name t1 := ht
    obtain ⟨-, h3, h4⟩ := info_cursor hn hu hi ht1 cur
    let t2 : WS ρ := { t1 with index := -1 + ((t.recs ++ [r]).length : Int) }
    have hins : insertInto ⟨areas.set i (some t), cur⟩ (.str name) [r] = (⟨areas.set i (some t2), cur⟩, none) := by
      have hgo : t1.gotoNum (-1) = (t2, none) := by
        have hlen : -(t1.recs.length : Int) ≤ -1 ∧ (-1 : Int) < t1.recs.length := by
          simp only [t1, List.length_append, List.length_singleton]; omega
        simp only [WS.gotoNum, WS.goto, show ¬ ((-1 : Int) > 0) by decide, if_false, if_pos hlen]
        rfl
      simp only [insertInto, onTable, h1, h2]
      show gotoCmd ⟨areas.set i (some t1), cur⟩ (.str name) (-1) = _
      simp only [gotoCmd, onTable, h3, hgo, h4]
    have ht2 : IsCursor name t2 := ht
    obtain ⟨u, hu1, hu2, hu3⟩ := insert_rows hn hu hi fits cur rows t2 ht2 (fun x hx => hf x (by simp [hx]))
    refine ⟨u, ?_, hu2, ?_⟩
    · simp only [insertRows, hf r (by simp), if_true, hins, hu1]
    · rw [hu3]; simp [t2, t1]

/-- Closing the cursor that has the name. -/
theorem close_cursor (db : DB ρ) {name : Str} (hne : name ≠ []) :
    useClose db (.num (selectFunction db (.str name))) = (⟨without db.areas name, db.current⟩, none) := by
  obtain ⟨c, cs, rfl⟩ := List.exists_cons_of_ne_nil hne
  simp only [selectFunction, getWorkarea, without]
  cases h : findAlias db.areas (c :: cs) with
  | none => simp [useClose]
  | some a =>
    have hlt : a < db.areas.length := (List.findIdx?_eq_some_iff_getElem.mp h).1
    have h0 : ((a : Int) + 1) ≠ 0 := by omega
    simp only [useClose, Sel.num.injEq, if_neg h0, getWorkarea, Model.Database.setIndex]
    rw [if_neg (by omega), if_pos (by omega)]
    simp

end SqlAux
open SqlAux

namespace SqlDemo
open CreateTableDemo

def info : List Info := [⟨"name".toList, .str, 20, 0⟩, ⟨"qty".toList, .int, 10, 0⟩]
def before : World (List Int) := ⟨fun _ => none, ⟨[some ⟨[], "people.dbf".toList, [[3]], 0, none, false⟩, none], 0⟩⟩
def long : Info := ⟨"description_of_part".toList, .str, 40, 0⟩

end SqlDemo

/-- C132: a result with rows, of columns of the types known, becomes the cursor of that name, with a column for each column and the
rows in order, the first one being the current record; a cursor that has the name is replaced.  Missing: results without rows
(`C132_empty_fails`), other types (`C132_types_fails`), long names (`C132_names_fails`). -/
theorem C132_rows_partial (accepts : Char → Nat → Bool) (h : accepts 'N' 2 = true ∧ accepts 'C' 1 = true ∧ accepts 'L' 0 = true)
    (fits : List Column → ρ → Bool) (w : World ρ) (name : Str) (info : List Info) (rows : List ρ) (hn : Name name) (hrows : rows ≠ [])
    (hinfo : ∀ c ∈ info, c.type ≠ .other ∧ Name c.name ∧ c.name.length ≤ 10) (hfits : ∀ r ∈ rows, fits (info.map columnOf) r = true)
    (hu : Unused (without w.db.areas name) name) (i : Nat) (hi : (without w.db.areas name).findIdx? Option.isNone = some i) :
    ∃ w' t, sqlexec accepts fits w name (.result info rows) = (w', 1) ∧
      w'.db.areas = (without w.db.areas name).set i (some t) ∧ tableInfo w'.db (.str name) = .ok t ∧ t.recs = rows ∧ t.index = 0 ∧
      w'.disk t.file = some (info.map columnOf, []) ∧ ∀ f, f ≠ t.file → w'.disk f = w.disk f := by
  have hlt := (List.findIdx?_eq_some_iff_getElem.mp hi).1
  obtain ⟨texts, ht1, ht2⟩ := specs_columns spec (column accepts) columnOf info
    (fun c hc => spec_column accepts h c (hinfo c hc).1 (hinfo c hc).2.1 (hinfo c hc).2.2)
  have hclose := close_cursor w.db hn.1
  let cols := info.map columnOf
  let w1 : World ρ := ({ w with db := ⟨without w.db.areas name, w.db.current⟩ } : World ρ).store (name ++ extension) cols []
  have hused : used ⟨without w.db.areas name, w.db.current⟩ (.str (name ++ extension)) = false := by
    have hne : name ++ extension ≠ [] := by simp [extension]
    obtain ⟨c, cs, he⟩ := List.exists_cons_of_ne_nil hne
    have : findAlias (without w.db.areas name) (name ++ extension) = none := by
      unfold findAlias
      rw [List.findIdx?_eq_none_iff]
      intro x hx
      cases x with
      | none => rfl
      | some t => exact (hu t hx).2
    rw [he] at this ⊢
    simp only [used, getWorkarea, this]
  have hopen := CreateTableAux.open_free w1.load ⟨without w.db.areas name, w.db.current⟩ (name ++ extension) i hused hi
  have hfile : tableFile (name ++ extension) = name ++ extension := by
    unfold tableFile
    rw [if_pos]
    rw [List.isSuffixOf_iff_suffix, WorkareasAux.lower_append]
    exact List.suffix_append _ _
  have hcur : IsCursor name (openTable w1.load (name ++ extension) []) := ⟨hfile, rfl⟩
  have hload : w1.load (name ++ extension) = [] := by simp [w1, World.load, World.store]
  obtain ⟨u, hu1, hu2, hu3⟩ := insert_rows hn hu hlt (fits cols) w.db.current rows _ hcur hfits
  have hrecs : u.recs = rows := by rw [hu3]; simp [openTable, hload]
  obtain ⟨-, hi1, hi2⟩ := info_cursor hn hu hlt hu2 w.db.current
  let v : WS ρ := { u with index := 0 }
  have hv : IsCursor name v := hu2
  have hgo : u.gotoNum 0 = (v, none) := by
    have hlen : -(u.recs.length : Int) ≤ 0 ∧ (0 : Int) < u.recs.length := by
      rw [hrecs]
      have := List.length_pos_iff.mpr hrows
      omega
    simp only [WS.gotoNum, WS.goto, show ¬ ((0 : Int) > 0) by decide, if_false, if_pos hlen]
    simp [v]
  refine ⟨{ w1 with db := ⟨(without w.db.areas name).set i (some v), w.db.current⟩ }, v, ?_, rfl, (info_cursor hn hu hlt hv w.db.current).2.1, hrecs, rfl, ?_, ?_⟩
  · have hdb : w1.db = ⟨without w.db.areas name, w.db.current⟩ := rfl
    simp only [sqlexec, toCursor, if_neg hn.1, if_neg hrows, ht1, hclose, ht2]
    change ((match useOpen w1.load w1.db (name ++ extension) (.num 0) [] with
      | (db, some _) => ({ w1 with db := db } : World ρ)
      | (db, none) =>
        match insertRows (fits cols) name rows db with
        | (db, some _) => { w1 with db := db }
        | (db, none) => { w1 with db := (gotoCmd db (.str name) 0).1 }), (1 : Int)) = _
    rw [hdb, hopen]
    simp only [hu1, gotoCmd, onTable, hi1, hgo, hi2]
  · have : v.file = name ++ extension := hv.1
    simp [this, w1, World.store, hfile, cols]
  · intro f hf
    have : v.file = name ++ extension := hv.1
    rw [this] at hf
    simp [w1, World.store, hfile, hf]

open SqlDemo CreateTableDemo in
example : Name "people".toList ∧ (∀ c ∈ info, c.type ≠ .other ∧ Name c.name ∧ c.name.length ≤ 10) ∧
    (without before.db.areas "people".toList).findIdx? Option.isNone = some 0 ∧
    Unused (without before.db.areas "people".toList) "people".toList ∧
    ((sqlexec accepts (fun _ _ => true) before "people".toList (.result info [[1], [2]])).1.db.areas.map (Option.map WS.recs)) = [some [[1], [2]], none] := by
  refine ⟨by decide, by decide, by decide +kernel, ?_, by decide +kernel⟩
  have : without before.db.areas "people".toList = [none, none] := by rfl
  rw [this]
  intro t ht
  simp at ht

/-- C132: a result without rows leaves everything as it was, an old cursor of that name too, and the value is 1. -/
theorem C132_empty_fails (accepts : Char → Nat → Bool) (fits : List Column → ρ → Bool) (w : World ρ) (name : Str) (info : List Info) :
    sqlexec accepts fits w name (.result info []) = (w, 1) := by
  simp [sqlexec, toCursor]

open SqlDemo CreateTableDemo in
example : ((sqlexec accepts (fun _ _ => true) before "people".toList (.result info [])).1.db.areas.map (Option.map WS.recs)) = [some [[3]], none] := by
  decide +kernel

/-- C132: so does a result with a date, a time, a decimal number or bytes. -/
theorem C132_types_fails (accepts : Char → Nat → Bool) (fits : List Column → ρ → Bool) (w : World ρ) (name : Str) (info : List Info) (rows : List ρ)
    (c : Info) (hc : c ∈ info) (ht : c.type = .other) : sqlexec accepts fits w name (.result info rows) = (w, 1) := by
  have : info.mapM spec = none := by
    induction info with
    | nil => cases hc
    | cons x l ih =>
      rcases List.mem_cons.mp hc with rfl | hm
      · simp [spec, ht]
      · have := ih hm
        cases hs : spec x <;> simp [hs, this]
  simp only [sqlexec, toCursor, this]
  split <;> rfl

open SqlDemo CreateTableDemo in
example : sqlexec accepts (fun _ _ => true) before "people".toList (.result (⟨"born".toList, .other, 10, 0⟩ :: info) [[1], [2]]) = (before, 1) :=
  C132_types_fails _ _ _ _ _ _ _ List.mem_cons_self rfl

/-- C132: of the name of a column ten characters are left. -/
theorem C132_names_fails (accepts : Char → Nat → Bool) (h : accepts 'N' 2 = true ∧ accepts 'C' 1 = true ∧ accepts 'L' 0 = true) (c : Info)
    (ht : c.type ≠ .other) (hn : Name c.name) (hl : 10 < c.name.length) :
    (spec c).bind (column accepts) = some { columnOf c with name := c.name.take 10 } ∧ (spec c).bind (column accepts) ≠ some (columnOf c) := by
  have hn' : Name (c.name.take 10) := by
    refine ⟨fun e => ?_, fun x hx => hn.2 x (List.mem_of_mem_take hx)⟩
    have := congrArg List.length e
    rw [List.length_take] at this
    simp only [List.length_nil] at this
    omega
  have hs : spec c = spec { c with name := c.name.take 10 } := by
    have ht : (c.name.take 10).take 10 = c.name.take 10 := by rw [List.take_take]; rfl
    simp only [spec, ht]
  have := spec_column accepts h { c with name := c.name.take 10 } ht hn' (by rw [List.length_take]; omega)
  rw [← hs] at this
  have he : columnOf { c with name := c.name.take 10 } = { columnOf c with name := c.name.take 10 } := by
    unfold columnOf; cases c.type <;> rfl
  rw [this, he]
  refine ⟨rfl, fun e => ?_⟩
  have hlen := congrArg (fun o => (o.map fun x : Column => x.name.length)) e
  simp only [Option.map_some, Option.some.injEq, List.length_take] at hlen
  have : (columnOf c).name = c.name := by unfold columnOf; cases c.type <;> rfl
  rw [this] at hlen
  omega

open SqlDemo CreateTableDemo in
example : Name long.name ∧ 10 < long.name.length ∧ (spec long).bind (column accepts) = some ⟨"descriptio".toList, 'C', 40, 0⟩ := by
  decide +kernel

end Props
