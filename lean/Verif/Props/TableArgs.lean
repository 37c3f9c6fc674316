import Verif.Model.TableArgs
import Verif.Props.Scan
/-!
# Functions and commands that are told which table to work on (C110)
-/
namespace Props.TableArgsAux
open Model.Database Model.TableArgs Props.DatabaseAux

variable {ρ : Type}

/-- After SELECT the table is the current one. -/
theorem tableInfo_select {db : DB ρ} {sel : Sel} {i : Int} (h : getWorkarea db sel = .ok i) :
    (select db sel) = ({ db with current := i }, none) ∧
    tableInfo { db with current := i } .none = tableInfo db sel := by
  constructor
  · simp only [select, h]
  · unfold tableInfo
    rw [h]
    rfl

/-- A table with three records in work area 1, on the second one, and an empty one in work area 2. -/
def people : WS Nat :=
  { name := "people".toList, file := "people.dbf".toList, recs := [10, 20, 30], index := 1, locate := none, found := true }
def orders : WS Nat :=
  { name := "orders".toList, file := "orders.dbf".toList, recs := [], index := 0, locate := none, found := false }
def sampleDb : DB Nat := { areas := [none, some people, some orders], current := 1 }
def sampleInfo : Info Nat :=
  { fields := fun f => if f = "people.dbf".toList then ["name".toList, "age".toList] else ["id".toList]
    size := fun _ => 20, deleted := fun r => decide (r = 20) }

end Props.TableArgsAux

namespace Props
open Model.Database Model.TableArgs Props.DatabaseAux Props.TableArgsAux

variable {ρ : Type}

/-- C110 (partial): ALIAS, DBF, RECSIZE, BOF, EOF, DELETED, FOUND and FIELD with the name or number of
a table give what they give without it when the table is selected.  Missing: RECNO, RECCOUNT and
FCOUNT. -/
theorem C110_functions_partial (info : Info ρ) {db : DB ρ} {sel : Sel} {i : Int} (h : getWorkarea db sel = .ok i)
    {f : Fn} (h1 : f ≠ .recno) (h2 : f ≠ .reccount) (h3 : f ≠ .fcount) :
    (select db sel).2 = none ∧ call info db (some sel) f = call info (select db sel).1 none f := by
  obtain ⟨hs, ht⟩ := tableInfo_select h
  rw [hs]
  refine ⟨rfl, ?_⟩
  cases f <;> first
    | contradiction
    | (simp only [call, ofTable, Option.getD_some, Option.getD_none, ht])

example : call sampleInfo sampleDb (some (.str "orders".toList)) .eof = .ok (.bool true) := by
  rw [(C110_functions_partial sampleInfo (db := sampleDb) (sel := .str "orders".toList) (i := 2) (by decide +kernel)
    (f := .eof) (by decide) (by decide) (by decide)).2]
  decide +kernel

/-- C110: what these functions give for the table in work area `a`. -/
theorem C110_values (info : Info ρ) {db : DB ρ} {sel : Sel} {a : Nat} {w : WS ρ} (h : At db sel a w) :
    call info db (some sel) .dbf = .ok (.text w.file) ∧
    call info db (some sel) .recsize = .ok (.num (info.size w.file)) ∧
    call info db (some sel) .found = .ok (.bool w.found) ∧
    (w.name ≠ [] → call info db (some sel) .alias = .ok (.text w.name)) ∧
    (∀ (i : Nat) f, (info.fields w.file)[i]? = some f →
      call info db (some sel) (.field ((i : Int) + 1)) = .ok (.text f)) ∧
    (∀ r, w.record = some r → call info db (some sel) .deleted = .ok (.bool (info.deleted r))) := by
  have ht := tableInfo_at h
  refine ⟨?_, ?_, ?_, ?_, ?_, ?_⟩
  · simp [call, ofTable, ht, orElse]
  · simp [call, ofTable, ht]
  · simp [call, ht]
  · intro hn
    simp [call, ofTable, ht, aliasOf, hn]
  · intro i f hf
    have : (i : Int) + 1 - 1 = (i : Int) := by omega
    have hneg : ¬ (i : Int) < 0 := by omega
    simp [call, ofTable, ht, fieldOf, this, Py.index, hf, orElse, hneg]
  · intro r hr
    simp [call, ofTable, ht, deletedOf, hr]

example : call sampleInfo sampleDb (some (.str "people".toList)) (.field 2) = .ok (.text "age".toList) :=
  (C110_values sampleInfo (db := sampleDb) (sel := .str "people".toList) (a := 1) (w := people)
    ⟨by decide +kernel, rfl⟩).2.2.2.2.1 1 "age".toList (by decide +kernel)

/-- C110: for a number beyond the fields FIELD gives 0 and for 0 the last field; in FoxPro it gives an
empty text. -/
theorem C110_field_fails (info : Info ρ) {db : DB ρ} {sel : Sel} {a : Nat} {w : WS ρ} (h : At db sel a w) :
    (∀ i : Nat, (info.fields w.file).length ≤ i →
      call info db (some sel) (.field ((i : Int) + 1)) = .ok (.num 0)) ∧
    (∀ f, (info.fields w.file).getLast? = some f → call info db (some sel) (.field 0) = .ok (.text f)) := by
  have ht := tableInfo_at h
  refine ⟨fun i hi => ?_, fun f hf => ?_⟩
  · have : (i : Int) + 1 - 1 = (i : Int) := by omega
    have hneg : ¬ (i : Int) < 0 := by omega
    simp [call, ofTable, ht, fieldOf, this, Py.index, hi, orElse, hneg]
  · have hne : (info.fields w.file) ≠ [] := by intro he; rw [he] at hf; simp at hf
    have hl : 0 < (info.fields w.file).length := List.length_pos_iff.mpr hne
    have h1 : ¬ (-1 : Int) + (info.fields w.file).length < 0 := by omega
    have h2 : ((-1 : Int) + (info.fields w.file).length).toNat = (info.fields w.file).length - 1 := by omega
    rw [List.getLast?_eq_getElem?] at hf
    have hx : Py.index (info.fields w.file) (-1) = some f := by
      unfold Py.index
      rw [if_pos (by omega), if_neg h1, h2, hf]
    simp [call, ofTable, ht, fieldOf, hx, orElse]

example : call sampleInfo sampleDb (some (.str "people".toList)) (.field 0) = .ok (.text "age".toList) :=
  (C110_field_fails sampleInfo (db := sampleDb) (sel := .str "people".toList) (a := 1) (w := people)
    ⟨by decide +kernel, rfl⟩).2 "age".toList (by decide +kernel)

/-- C110: RECNO and RECCOUNT with an argument end in a TypeError. -/
theorem C110_recno_fails (info : Info ρ) (db : DB ρ) (sel : Sel) :
    call info db (some sel) .recno = .error .typeError ∧ call info db (some sel) .reccount = .error .typeError :=
  ⟨rfl, rfl⟩

example : call sampleInfo sampleDb (some (.str "orders".toList)) .reccount = .error .typeError ∧
    call sampleInfo (select sampleDb (.str "orders".toList)).1 none .reccount = .ok (.num 0) :=
  ⟨(C110_recno_fails _ _ _).2, by decide +kernel⟩

/-- C110: FCOUNT gives the number of the fields of the current table; it is right exactly when the
table asked for has as many. -/
theorem C110_fcount_iff (info : Info ρ) {db : DB ρ} {sel : Sel} {a b : Nat} {w v : WS ρ}
    (ha : At db .none a w) (hb : At db sel b v) :
    call info db (some sel) .fcount = .ok (.num ((info.fields w.file).length : Int)) ∧
    (call info db (some sel) .fcount = call info (select db sel).1 none .fcount ↔
      (info.fields w.file).length = (info.fields v.file).length) := by
  obtain ⟨hs, ht⟩ := tableInfo_select hb.1
  have h1 : call info db (some sel) .fcount = .ok (.num ((info.fields w.file).length : Int)) := by
    simp only [call, ofTable, tableInfo_at ha, orElse]
  refine ⟨h1, ?_⟩
  have h2 : call info (select db sel).1 none .fcount = .ok (.num ((info.fields v.file).length : Int)) := by
    rw [hs]
    simp only [call, ofTable, ht, tableInfo_at hb, orElse]
  rw [h1, h2]
  constructor
  · intro h
    injection h with h
    injection h with h
    omega
  · intro h; rw [h]

example : call sampleInfo sampleDb (some (.str "orders".toList)) .fcount ≠
    call sampleInfo (select sampleDb (.str "orders".toList)).1 none .fcount := by
  intro h
  have := (C110_fcount_iff sampleInfo (db := sampleDb) (a := 1) (b := 2) (w := people) (v := orders) ⟨rfl, rfl⟩
    ⟨by decide +kernel, rfl⟩).2.mp h
  exact absurd this (by decide +kernel)

/-- C110: ZAP IN removes the records of the current table, whatever table it names: when the current
table has records, the right table is emptied exactly if it is the current one. -/
theorem C110_zap_iff {db : DB ρ} {sel : Sel} {a b : Nat} {w v : WS ρ} (ha : At db .none a w) (hb : At db sel b v)
    (hw : w.recs ≠ []) :
    ∃ db', zap db (some sel) = (db', none) ∧ (∃ w', tableAt db' a = some w' ∧ w'.recs = []) ∧
      (∀ c, c ≠ a → db'.areas[c]? = db.areas[c]?) ∧
      (((∃ v', tableAt db' b = some v' ∧ v'.recs = []) ∧ ∀ c, c ≠ b → db'.areas[c]? = db.areas[c]?) ↔ a = b) := by
  have hz : zap db (some sel) = ({ db with areas := db.areas.set a (some (WS.zap w)) }, none) := by
    unfold zap
    rw [onTable_at ha]
  have hl := lt_of_at ha
  have hsame : (∃ w', tableAt ({ db with areas := db.areas.set a (some (WS.zap w)) } : DB ρ) a = some w' ∧ w'.recs = []) :=
    ⟨WS.zap w, tableAt_set hl rfl, rfl⟩
  have hother : ∀ c, c ≠ a →
      ({ db with areas := db.areas.set a (some (WS.zap w)) } : DB ρ).areas[c]? = db.areas[c]? := by
    intro c hc
    simp [List.getElem?_set, Ne.symm hc]
  refine ⟨_, hz, hsame, hother, ?_⟩
  constructor
  · rintro ⟨_, h2⟩
    apply Decidable.byContradiction
    intro hne
    have h3 := h2 a hne
    rw [ha.2] at h3
    simp only [List.getElem?_set, hl, if_true, Option.some.injEq] at h3
    have := congrArg WS.recs h3
    exact hw this.symm
  · rintro rfl
    exact ⟨hsame, hother⟩

example : ∃ db', zap sampleDb (some (.str "orders".toList)) = (db', none) ∧
    (∃ w', tableAt db' 1 = some w' ∧ w'.recs = []) := by
  obtain ⟨db', h1, h2, _⟩ := C110_zap_iff (db := sampleDb) (sel := .str "orders".toList) (a := 1) (b := 2)
    (w := people) (v := orders) ⟨rfl, rfl⟩ ⟨by decide +kernel, rfl⟩ (by decide)
  exact ⟨db', h1, h2⟩

/-- C110 for a work area without a table, where FoxPro's functions answer with an empty text, 0 and .F.: ALIAS, RECSIZE, BOF,
EOF and DELETED are exceptions, DBF is None; FOUND is .F., and FIELD 0. -/
theorem C110_unused_fails (info : Info ρ) {db : DB ρ} {sel : Sel} {a : Nat} (h : getWorkarea db sel = .ok (a : Int))
    (ha : db.areas[a]? = some none) :
    (∀ f, f = .alias ∨ f = .recsize ∨ f = .bof ∨ f = .eof ∨ f = .deleted → call info db (some sel) f = .error .attributeError) ∧
    call info db (some sel) .dbf = .ok .none ∧ call info db (some sel) .found = .ok (.bool false) ∧
    ∀ i, call info db (some sel) (.field i) = .ok (.num 0) := by
  have ht : tableInfo db sel = .error .attributeError := by
    unfold tableInfo
    rw [h]
    simp only [Py.index]
    rw [if_neg (by omega), Int.toNat_natCast, ha]
  refine ⟨?_, ?_, ?_, ?_⟩
  · rintro f (rfl | rfl | rfl | rfl | rfl) <;> simp [call, ofTable, ht]
  · simp [call, ofTable, ht, orElse]
  · simp [call, ht]
  · intro i
    simp [call, ofTable, ht, orElse]

example : getWorkarea sampleDb (.num 3) = .ok 3 ∧ getWorkarea { sampleDb with current := 0 } .none = .ok ((0 : Nat) : Int) ∧
    sampleDb.areas[0]? = some none := ⟨rfl, rfl, rfl⟩

end Props
