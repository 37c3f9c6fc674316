import Verif.Lemmas.Database
/-!
# Properties of the database commands (C21-C28)
-/
namespace Props.DatabaseAux
open Model.Database Py
open Spec.Database (scopeRange holds processed changeAt Areas Res known)

variable {ρ : Type}

/-- `sel` addresses work area `a` (counted from 0), which holds the table `w`. -/
def At (db : DB ρ) (sel : Sel) (a : Nat) (w : WS ρ) : Prop :=
  getWorkarea db sel = .ok (a : Int) ∧ db.areas[a]? = some (some w)

/-- The record pointer is on a record or at the end of the file. -/
def Positioned (w : WS ρ) : Prop := w.recs = [] ∨ (0 ≤ w.index ∧ w.index ≤ w.recs.length)

def pos (w : WS ρ) : Nat := w.index.toNat

theorem tableInfo_at {db : DB ρ} {sel : Sel} {a : Nat} {w : WS ρ} (h : At db sel a w) :
    tableInfo db sel = .ok w := by
  unfold tableInfo
  rw [h.1]
  simp only [index_nat, h.2]

theorem lt_of_at {db : DB ρ} {sel : Sel} {a : Nat} {w : WS ρ} (h : At db sel a w) :
    a < db.areas.length := by
  obtain ⟨h, _⟩ := List.getElem?_eq_some_iff.mp h.2
  exact h

theorem setIndex_nat {α : Type} (l : List α) (a : Nat) (v : α) (h : a < l.length) :
    setIndex l (a : Int) v = .ok (l.set a v) := by
  unfold setIndex
  rw [if_neg (by omega)]
  simp [h]

theorem putInfo_at {db : DB ρ} {sel : Sel} {a : Nat} {w w' : WS ρ} (h : At db sel a w) :
    putInfo db sel w' = { db with areas := db.areas.set a (some w') } := by
  unfold putInfo
  rw [h.1]
  simp only [setIndex_nat _ _ _ (lt_of_at h)]

theorem processed_empty {scope : Scope} {F W : Nat → ρ → Bool} {c : Nat} :
    processed scope F W [] c = [] := by
  have : ∀ l : List Nat, l.takeWhile (holds W ([] : List ρ)) = [] := by
    intro l; cases l <;> simp [holds]
  simp [processed, this]

/-- The scope reaches past the table in a way the implementation does not support. -/
def Overrun (scope : Scope) (w : WS ρ) : Prop :=
  w.recs ≠ [] ∧ match scope with
    | .next n => w.index < w.recs.length ∧ (w.recs.length : Int) < w.index + n - 1
    | .record n => (w.recs.length : Int) < n ∨ n ≤ -(w.recs.length : Int)
    | _ => False

theorem getRecords_at {db : DB ρ} {sel : Sel} {a : Nat} {w : WS ρ} (h : At db sel a w)
    (hp : Positioned w) (scope : Scope) (F W : Nat → ρ → Bool) (act : Nat → ρ → ρ) :
    let r := getRecords db sel scope F W act
    let vs := processed scope F W w.recs (pos w)
    r.2.1 = vs ∧
    (∃ j, r.1.areas = db.areas.set a (some { w with recs := changeAt vs act w.recs, index := j }) ∧
      (w.recs ≠ [] → r.2.2 = none → j = endPos scope (pos w) w.recs.length)) ∧
    (r.2.2 = none ↔ ¬ Overrun scope w) ∧
    (r.2.2 = none → r.1.current = db.current) ∧
    (r.2.2 ≠ none → r.2.2 = some .indexError ∧ r.1.current = a) := by
  intro r vs
  have hat1 : At ({ db with current := (a : Int) } : DB ρ) .none a w := ⟨rfl, h.2⟩
  have hset : ∀ w' : WS ρ, w' = w → db.areas.set a (some w') = db.areas := by
    intro w' hw'
    subst hw'
    obtain ⟨hl, hg⟩ := List.getElem?_eq_some_iff.mp h.2
    rw [← hg]; exact List.set_getElem_self hl
  by_cases hne : w.recs = []
  · have hr : r = (db, [], none) := by
      show getRecords db sel scope F W act = _
      unfold getRecords select
      simp only [h.1, tableInfo_at hat1, hne, if_true]
    have hvs : vs = [] := by show processed scope F W w.recs (pos w) = []; rw [hne, processed_empty]
    rw [hr, hvs]
    refine ⟨rfl, ⟨w.index, ?_, fun h0 => absurd hne h0⟩, ?_, fun _ => rfl, fun h0 => absurd rfl h0⟩
    · rw [changeAt_nil, hset _ rfl]
    · simp [Overrun, hne]
  · have hpos : 0 ≤ w.index ∧ w.index ≤ w.recs.length := by
      rcases hp with h0 | h0
      · exact absurd h0 hne
      · exact h0
    have hc : w.index = ((pos w : Nat) : Int) := by unfold pos; omega
    have hlen : pos w ≤ w.recs.length := by unfold pos; omega
    have h0 : 0 < w.recs.length := List.length_pos_iff.mpr hne
    obtain ⟨h1, ⟨j, h2⟩, h3, h4⟩ := ws_getRecords_spec w (pos w) hc hlen h0 scope F W act
    have hov : scopeErr scope (pos w) w.recs.length = true ↔ Overrun scope w := by
      unfold scopeErr Overrun
      cases scope <;> simp [hne] <;> omega
    cases he : scopeErr scope (pos w) w.recs.length with
    | false =>
      have h3' : (w.getRecords scope F W act).2.2 = none := by rw [h3, he]; rfl
      have hr : r = ({ areas := db.areas.set a (some (w.getRecords scope F W act).1), current := db.current },
          (w.getRecords scope F W act).2.1, none) := by
        show getRecords db sel scope F W act = _
        unfold getRecords select
        simp only [h.1, tableInfo_at hat1, hne, if_false, h3', putInfo_at hat1]
      rw [hr]
      refine ⟨h1, ⟨j, by rw [h2], fun _ _ => ?_⟩, ?_, fun _ => rfl, fun h0 => absurd rfl h0⟩
      · have := h4 h3'; rw [h2] at this; exact this
      · rw [he] at hov; simpa using hov
    | true =>
      have h3' : (w.getRecords scope F W act).2.2 = some .indexError := by rw [h3, he]; rfl
      have hr : r = ({ areas := db.areas.set a (some (w.getRecords scope F W act).1), current := (a : Int) },
          (w.getRecords scope F W act).2.1, some .indexError) := by
        show getRecords db sel scope F W act = _
        unfold getRecords select
        simp only [h.1, tableInfo_at hat1, hne, if_false, h3', putInfo_at hat1]
      rw [hr]
      refine ⟨h1, ⟨j, by rw [h2], fun _ h => by simp at h⟩, ?_, fun h => by simp at h, fun _ => ⟨rfl, rfl⟩⟩
      rw [he] at hov; simpa using hov

/-- What the work area holds after the command. -/
def tableAt (db : DB ρ) (a : Nat) : Option (WS ρ) := (db.areas[a]?).bind id

theorem tableAt_set {db : DB ρ} {a : Nat} {w : WS ρ} {areas : List (Option (WS ρ))} {c : Int}
    (h : a < areas.length) (hdb : db = { areas := areas.set a (some w), current := c }) :
    tableAt db a = some w := by
  subst hdb; simp [tableAt, List.getElem?_set, h]

theorem changeAt_get {ks : List Nat} {act : Nat → ρ → ρ} {l : List ρ} {k : Nat} :
    (changeAt ks act l)[k]? = l[k]?.map (fun x => if k ∈ ks then act k x else x) := by
  unfold changeAt; rw [List.getElem?_mapIdx]

theorem holds_true {l : List ρ} {k : Nat} (h : k < l.length) : holds (fun _ _ => true) l k = true := by
  simp [holds, h]

theorem mem_scopeRange {scope : Scope} {c len k : Nat} (h : k ∈ scopeRange scope c len) : k < len := by
  cases scope with
  | all => simpa [scopeRange] using h
  | rest => simp [scopeRange, List.mem_range'] at h; omega
  | next n =>
    have := List.mem_of_mem_take h
    simp [List.mem_range'] at this; omega
  | record n =>
    simp only [scopeRange] at h
    split at h
    · simp at h; omega
    · simp at h

theorem processed_true {scope : Scope} {l : List ρ} {c : Nat} :
    processed scope (fun _ _ => true) (fun _ _ => true) l c = scopeRange scope c l.length := by
  unfold processed
  have h1 : ∀ s : List Nat, (∀ k ∈ s, k < l.length) →
      s.takeWhile (holds (fun _ _ => true) l) = s := by
    intro s
    induction s with
    | nil => simp
    | cons a t ih =>
      intro h
      have := h a (by simp)
      simp [holds_true this]
      exact ih fun k hk => h k (by simp [hk])
  rw [h1 _ fun k => mem_scopeRange]
  rw [List.filter_eq_self]
  intro k hk
  exact holds_true (mem_scopeRange hk)

/-- A small table with numbers for records. -/
def tbl (recs : List Int) (i : Int) : WS Int :=
  { name := [], file := "t.dbf".toList, recs := recs, index := i, locate := none, found := false }

def rec1 (v : Int) : Rec := { fields := fun _ => v, deleted := false }

def rtbl (vs : List Int) (i : Int) : WS Rec :=
  { name := [], file := "t.dbf".toList, recs := vs.map rec1, index := i, locate := none, found := false }

end Props.DatabaseAux

namespace Props
open Model.Database Py DatabaseAux
open Spec.Database (scopeRange holds processed changeAt defaultScope setField Areas Res known)

variable {ρ : Type}

/-! ## C23: the records that are processed -/

/-- C23: whatever is done with the records, exactly the records in scope are processed, in order
and once each, and nothing else changes: not the other records, not the other work areas. -/
theorem C23_processed {db : DB ρ} {sel : Sel} {a : Nat} {w : WS ρ} (h : At db sel a w)
    (hp : Positioned w) (scope : Scope) (F W : Nat → ρ → Bool) (act : Nat → ρ → ρ) :
    let r := getRecords db sel scope F W act
    let vs := processed scope F W w.recs w.index.toNat
    r.2.1 = vs ∧ (∃ w', r.1.areas = db.areas.set a (some w') ∧ w'.recs = changeAt vs act w.recs ∧
      w'.name = w.name ∧ w'.file = w.file) := by
  intro r vs
  obtain ⟨h1, ⟨j, h2, _⟩, _⟩ := getRecords_at h hp scope F W act
  exact ⟨h1, _, h2, rfl, rfl, rfl⟩

example : At { areas := [none, some (tbl [5, 6, 7] 1)], current := 0 } (.num 1) 1 (tbl [5, 6, 7] 1) ∧
    Positioned (tbl [5, 6, 7] 1) ∧
    processed .rest (fun _ x => x = 7) (fun _ _ => true) (tbl [5, 6, 7] 1).recs 1 = [2] := by
  refine ⟨⟨rfl, rfl⟩, Or.inr ?_, by decide⟩
  simp [tbl]

/-- C23: COUNT gives the number of the processed records. -/
theorem C23_count {db : DB ρ} {sel : Sel} {a : Nat} {w : WS ρ} (h : At db sel a w)
    (hp : Positioned w) (scope : Scope) (F W : Nat → ρ → Bool) :
    let r := count db sel scope F W
    r.2.1 = (processed scope F W w.recs w.index.toNat).length ∧
      (tableAt r.1 a).map WS.recs = some w.recs := by
  obtain ⟨h1, ⟨j, h2, _⟩, _⟩ := getRecords_at h hp scope F W (fun _ r => r)
  refine ⟨congrArg List.length h1, ?_⟩
  show Option.map WS.recs (tableAt (getRecords db sel scope F W (fun _ r => r)).1 a) = _
  simp only [tableAt, h2, List.getElem?_set, lt_of_at h, if_true, Option.bind_some, id, Option.map_some]
  congr 1
  unfold changeAt; apply List.ext_getElem <;> simp

example : (count { areas := [none, some (tbl [5, 6, 7] 1)], current := 0 } (.num 1) .rest (fun _ x => x ≠ 6) (fun _ _ => true)).2.1 = 1 := by
  decide +kernel

/-- C23: SUM adds the values of the expression over the processed records. -/
theorem C23_sum {db : DB ρ} {sel : Sel} {a : Nat} {w : WS ρ} (h : At db sel a w)
    (hp : Positioned w) (scope : Scope) (e : Nat → ρ → Int) (F W : Nat → ρ → Bool) :
    (sum db sel scope e F W).2.1 =
      ((processed scope F W w.recs w.index.toNat).filterMap fun k => (w.recs[k]?).map (e k)).sum := by
  obtain ⟨h1, _⟩ := getRecords_at h hp scope F W (fun _ r => r)
  unfold sum
  simp only [h.1, index_nat, h.2]
  rw [h1]
  rfl

example : (sum { areas := [none, some (tbl [5, 6, 7] 1)], current := 0 } (.num 1) .rest (fun _ x => (x : Int)) (fun _ _ => true)
    (fun _ _ => true)).2.1 = 13 := by decide +kernel

/-- C23: DELETE and RECALL set the mark of exactly the processed records. -/
theorem C23_delete {db : DB Rec} {sel : Sel} {a : Nat} {w : WS Rec} (h : At db sel a w)
    (hp : Positioned w) (scope : Scope) (recall : Bool) (F W : Nat → Rec → Bool) (k : Nat) (x : Rec)
    (hx : w.recs[k]? = some x) :
    let db' := (deleteRecord db sel scope recall F W).1
    ((tableAt db' a).bind fun t => t.recs[k]?) =
      some (if k ∈ processed scope F W w.recs w.index.toNat then
        { fields := x.fields, deleted := !recall } else x) := by
  obtain ⟨h1, ⟨j, h2, _⟩, _⟩ := getRecords_at h hp scope F W (fun _ x => { x with deleted := !recall })
  show Option.bind (tableAt (getRecords db sel scope F W _).1 a) _ = _
  simp only [tableAt, h2, List.getElem?_set, lt_of_at h, if_true, Option.bind_some, id, changeAt_get,
    hx, Option.map_some]
  rfl

example : ((tableAt (deleteRecord { areas := [some (rtbl [5, 6, 7] 0)], current := 0 } .none .all false
      (fun _ x => x.fields [] = 6) (fun _ _ => true)).1 0).bind fun t => t.recs[1]?).map Rec.deleted
    = some true := by decide +kernel

/-- C23: a command without an error leaves the record pointer at the end of the scope: end of file
for ALL and REST, the last record for NEXT, the record itself for RECORD. -/
theorem C23_pointer {db : DB ρ} {sel : Sel} {a : Nat} {w : WS ρ} (h : At db sel a w)
    (hp : Positioned w) (scope : Scope) (F W : Nat → ρ → Bool) (act : Nat → ρ → ρ)
    (hne : w.recs ≠ []) (hn : ∀ n, scope = .next n → 1 ≤ n ∧ w.index < w.recs.length)
    (hr : ∀ n, scope = .record n → 1 ≤ n) (hok : (getRecords db sel scope F W act).2.2 = none) :
    (tableAt (getRecords db sel scope F W act).1 a).map WS.index = some (match scope with
      | .all => (w.recs.length : Int)
      | .rest => w.recs.length
      | .next n => w.index + n - 1
      | .record n => n - 1) := by
  obtain ⟨h1, ⟨j, h2, hj⟩, _⟩ := getRecords_at h hp scope F W act
  have hj := hj hne hok
  simp only [tableAt, h2, List.getElem?_set, lt_of_at h, if_true, Option.bind_some, id, Option.map_some, hj]
  congr 1
  have hpos : 0 ≤ w.index ∧ w.index ≤ w.recs.length := by
    rcases hp with h0 | h0
    · exact absurd h0 hne
    · exact h0
  cases scope with
  | all => rfl
  | rest => rfl
  | next n =>
    have := hn n rfl
    have e1 : ¬ pos w = w.recs.length := by unfold pos; omega
    have e2 : (pos w : Int) = w.index := by unfold pos; omega
    simp only [endPos]
    rw [if_neg e1, e2, if_neg (by omega)]
  | record n =>
    have := hr n rfl
    simp only [endPos]
    split
    · omega
    · rfl

example : (getRecords { areas := [some (tbl [5, 6, 7] 0)], current := 0 } .none (.next 2)
    (fun _ _ => true) (fun _ _ => true) (fun _ r => r)).2.2 = none := by decide +kernel

/-- C23 fails as to errors: the commands end with an exception exactly when NEXT reaches more than
one record past the last, or RECORD names no record. -/
theorem C23_error_iff {db : DB ρ} {sel : Sel} {a : Nat} {w : WS ρ} (h : At db sel a w)
    (hp : Positioned w) (scope : Scope) (F W : Nat → ρ → Bool) (act : Nat → ρ → ρ) :
    (getRecords db sel scope F W act).2.2 = none ↔ ¬ (w.recs ≠ [] ∧ match scope with
      | .next n => w.index < w.recs.length ∧ (w.recs.length : Int) < w.index + n - 1
      | .record n => (w.recs.length : Int) < n ∨ n ≤ -(w.recs.length : Int)
      | _ => False) := by
  obtain ⟨_, _, h3, _⟩ := getRecords_at h hp scope F W act
  exact h3

example : (getRecords { areas := [some (tbl [5, 6, 7] 1)], current := 0 } .none (.next 4)
      (fun _ _ => true) (fun _ _ => true) (fun _ r => r)).2.2 ≠ none ∧
    (getRecords { areas := [some (tbl [5, 6, 7] 1)], current := 0 } .none (.next 3)
      (fun _ _ => true) (fun _ _ => true) (fun _ r => r)).2.2 = none := by decide +kernel

/-- C23 fails: COUNT NEXT n (and every command that goes through the records so) raises an exception when there are fewer
than n - 1 records from the current one on. -/
theorem C23_next_overrun_fails {db : DB ρ} {sel : Sel} {a : Nat} {w : WS ρ} (h : At db sel a w) (hi : 0 ≤ w.index)
    (hl : w.index < w.recs.length) (n : Int) (hn : (w.recs.length : Int) - w.index < n - 1) (F W : Nat → ρ → Bool) :
    ∃ e, (count db sel (.next n) F W).2.2 = some e := by
  have hne : w.recs ≠ [] := by
    intro h0
    rw [h0] at hl
    exact absurd hl (by simp; omega)
  cases he : (getRecords db sel (.next n) F W (fun _ r => r)).2.2 with
  | none => exact absurd ⟨hne, hl, by omega⟩ ((C23_error_iff h (.inr ⟨hi, by omega⟩) (.next n) F W (fun _ r => r)).mp he)
  | some e => exact ⟨e, he⟩

example : ∃ e, (count { areas := [some (tbl [5, 6, 7] 0)], current := 0 } .none (.next 10) (fun _ _ => true) (fun _ _ => true)).2.2 = some e :=
  C23_next_overrun_fails (w := tbl [5, 6, 7] 0) ⟨rfl, rfl⟩ (by decide) (by decide) 10 (by decide) _ _

/-! ## C24: the selected work area -/

/-- C24, for commands that end without an exception; missing: the exceptions of `C23_error_iff`,
see `C24_fails`. -/
theorem C24_restored_partial (db : DB ρ) (sel : Sel) (scope : Scope) (F W : Nat → ρ → Bool)
    (act : Nat → ρ → ρ) (hok : (getRecords db sel scope F W act).2.2 = none) :
    (getRecords db sel scope F W act).1.current = db.current := by
  revert hok
  unfold getRecords
  split
  · simp
  · split
    · simp
    · split
      · simp
      · simp only
        split <;> simp

example : (getRecords { areas := [none, some (tbl [5, 6, 7] 1)], current := 0 } (.num 1) .rest
    (fun _ _ => true) (fun _ _ => true) (fun _ r => r)).2.2 = none := by decide +kernel

/-- C24 fails: when the scope reaches past the table, the table's work area stays selected. -/
theorem C24_fails {db : DB ρ} {sel : Sel} {a : Nat} {w : WS ρ} (h : At db sel a w)
    (hp : Positioned w) (hother : db.current ≠ a) (n : Int) (hne : w.recs ≠ [])
    (hn : (w.recs.length : Int) < n) (F W : Nat → ρ → Bool) (act : Nat → ρ → ρ) :
    (getRecords db sel (.record n) F W act).1.current ≠ db.current := by
  obtain ⟨_, _, h3, _, h5⟩ := getRecords_at h hp (.record n) F W act
  have : (getRecords db sel (.record n) F W act).2.2 ≠ none := by
    intro h0
    exact (h3.mp h0) ⟨hne, Or.inl hn⟩
  rw [(h5 this).2]
  exact fun h => hother h.symm

example : At { areas := [none, some (tbl [5, 6, 7] 1)], current := 0 } (.num 1) 1 (tbl [5, 6, 7] 1) ∧
    ((tbl [5, 6, 7] 1).recs.length : Int) < 4 := by
  refine ⟨⟨rfl, rfl⟩, by decide⟩

/-! ## C27: REPLACE -/

/-- C27, for a value that is the same for all records and without FOR and WHILE: the field is
changed in exactly the records in scope.  Missing: conditions and values that depend on the record,
see `C27_for_fails` and `C27_value_fails`. -/
theorem C27_replace_partial {db : DB Rec} {sel : Sel} {a : Nat} {w : WS Rec} (h : At db sel a w)
    (hp : Positioned w) (scope : Scope) (field : Str) (v : Int) :
    let db' := (replace db sel scope field v).1
    (∀ b, b ≠ a → db'.areas[b]? = db.areas[b]?) ∧
    (∃ w', tableAt db' a = some w' ∧ w'.recs.length = w.recs.length ∧
      ∀ k x, w.recs[k]? = some x → w'.recs[k]? =
        some (if k ∈ scopeRange scope w.index.toNat w.recs.length then setField x (field.map Char.toLower) v else x)) := by
  intro db'
  obtain ⟨h1, ⟨j, h2, _⟩, _⟩ := getRecords_at h hp scope (fun _ _ => true) (fun _ _ => true)
    (fun _ x => { x with fields := fun f => if f = lower field then v else x.fields f })
  have hdb : db'.areas = _ := h2
  constructor
  · intro b hb
    rw [hdb, List.getElem?_set]
    simp [Ne.symm hb]
  · refine ⟨_, by simp only [tableAt, hdb, List.getElem?_set, lt_of_at h, if_true, Option.bind_some, id]; rfl,
      by simp [changeAt_length], ?_⟩
    intro k x hx
    simp only [changeAt_get, hx, Option.map_some, processed_true]
    rfl

example : At { areas := [some (rtbl [5, 6, 7] 1)], current := 0 } (.num 0) 0 (rtbl [5, 6, 7] 1) ∧
    scopeRange .rest 1 3 = [1, 2] := ⟨⟨rfl, rfl⟩, by decide⟩

/-- C27 for REPLACE without a scope and with a value that is the same for all records: the current
record is changed and no other one.  Missing: as above. -/
theorem C27_default_partial {db : DB Rec} {sel : Sel} {a : Nat} {w : WS Rec} {k : Nat} (h : At db sel a w)
    (hk : w.index = (k : Int)) (hlt : k < w.recs.length) (field : Str) (v : Int) :
    let db' := (replaceStmt db sel field (fun _ => v) ⟨none, none, none⟩).1
    ((∃ w0 x, At db .none db.current.toNat w0 ∧ w0.record = some x) →
      (∀ b, b ≠ a → db'.areas[b]? = db.areas[b]?) ∧
      ∃ w', tableAt db' a = some w' ∧ w'.recs.length = w.recs.length ∧
        (∀ x, w.recs[k]? = some x → w'.recs[k]? = some (setField x (field.map Char.toLower) v)) ∧
        (∀ i, i ≠ k → w'.recs[i]? = w.recs[i]?)) := by
  rintro db' ⟨w0, x0, h0, hx0⟩
  have hp : Positioned w := Or.inr ⟨by omega, by omega⟩
  have hdb : db' = (replace db sel (.next 1) field v).1 := by
    simp only [db', replaceStmt, tableInfo_at h0, hx0]
    rfl
  obtain ⟨h1, w', h2, h3, h4⟩ := C27_replace_partial h hp (.next 1) field v
  rw [hdb]
  have hm : ∀ i, i ∈ scopeRange (.next 1) w.index.toNat w.recs.length ↔ i = k := by
    intro i
    rw [hk]
    obtain ⟨n, hn⟩ : ∃ n, w.recs.length - k = n + 1 := ⟨w.recs.length - k - 1, by omega⟩
    simp [scopeRange, hn, List.range'_succ]
  refine ⟨h1, w', h2, h3, fun x hx => by rw [h4 k x hx, if_pos ((hm k).mpr rfl)], fun i hi => ?_⟩
  by_cases hl : i < w.recs.length
  · rw [h4 i _ (List.getElem?_eq_getElem hl), if_neg (fun hc => hi ((hm i).mp hc)), List.getElem?_eq_getElem hl]
  · rw [List.getElem?_eq_none (by omega), List.getElem?_eq_none (by omega)]

example : At { areas := [some (rtbl [5, 6, 7] 1)], current := 0 } .none 0 (rtbl [5, 6, 7] 1) ∧
    (rtbl [5, 6, 7] 1).index = (1 : Nat) ∧ (rtbl [5, 6, 7] 1).record = some (rec1 6) := ⟨⟨rfl, rfl⟩, rfl, rfl⟩

/-- C27 fails: the value of REPLACE is computed once, from the record that is current before the command; all records in
scope get it, also those for which the expression has another value. -/
theorem C27_value_fails {db : DB Rec} {a : Nat} {w : WS Rec} {x0 : Rec} (h : At db .none a w) (hp : Positioned w)
    (hx : w.record = some x0) (scope : Scope) (field : Str) (value : Rec → Int) :
    ∃ w', tableAt (replaceStmt db .none field value ⟨some scope, none, none⟩).1 a = some w' ∧
      (∀ k x, k ∈ scopeRange scope w.index.toNat w.recs.length → w.recs[k]? = some x →
        w'.recs[k]? = some (setField x (field.map Char.toLower) (value x0))) ∧
      ∀ k x, k ∈ scopeRange scope w.index.toNat w.recs.length → w.recs[k]? = some x → value x ≠ value x0 →
        w'.recs[k]? ≠ some (setField x (field.map Char.toLower) (value x)) := by
  have hq : replaceStmt db .none field value ⟨some scope, none, none⟩ = replace db .none scope field (value x0) := by
    simp only [replaceStmt, tableInfo_at h, hx]
    rfl
  rw [hq]
  obtain ⟨_, w', h2, h3, h4⟩ := C27_replace_partial h hp scope field (value x0)
  have key : ∀ k x, k ∈ scopeRange scope w.index.toNat w.recs.length → w.recs[k]? = some x →
        w'.recs[k]? = some (setField x (field.map Char.toLower) (value x0)) := by
    intro k x hk hx
    rw [h4 k x hx, if_pos hk]
  refine ⟨w', h2, key, fun k x hk hx hne he => ?_⟩
  rw [key k x hk hx] at he
  have := congrArg (fun y : Rec => y.fields (field.map Char.toLower)) (Option.some.inj he)
  simp only [setField, if_true] at this
  exact hne this.symm

example : At { areas := [some (rtbl [5, 6, 7] 0)], current := 0 } .none 0 (rtbl [5, 6, 7] 0) ∧
    (rtbl [5, 6, 7] 0).record = some (rec1 5) ∧
    (tableAt (replaceStmt { areas := [some (rtbl [5, 6, 7] 0)], current := 0 } .none "f".toList (fun x => x.fields "f".toList + 1)
      ⟨some .all, none, none⟩).1 0).map (fun t => t.recs.map (fun x => x.fields "f".toList)) = some [6, 6, 6] :=
  ⟨⟨rfl, rfl⟩, rfl, by decide +kernel⟩

/-- C27 fails: REPLACE with FOR does what it does without, so that every record in scope is changed, whether the condition
holds for it or not. -/
theorem C27_for_fails {db : DB Rec} {a : Nat} {w : WS Rec} {x0 : Rec} (h : At db .none a w) (hp : Positioned w)
    (hx : w.record = some x0) (scope : Scope) (field : Str) (v : Int) (c : Nat → Rec → Bool) :
    ∃ w', tableAt (replaceStmt db .none field (fun _ => v) ⟨some scope, some c, none⟩).1 a = some w' ∧
      ∀ k x, k ∈ scopeRange scope w.index.toNat w.recs.length → w.recs[k]? = some x →
        w'.recs[k]? = some (setField x (field.map Char.toLower) v) := by
  obtain ⟨w', h1, h2, _⟩ := C27_value_fails h hp hx scope field (fun _ => v)
  exact ⟨w', h1, h2⟩

example : At { areas := [some (rtbl [5, 6, 7] 0)], current := 0 } .none 0 (rtbl [5, 6, 7] 0) ∧
    (rtbl [5, 6, 7] 0).record = some (rec1 5) ∧
    ((tableAt (replaceStmt { areas := [some (rtbl [5, 6, 7] 0)], current := 0 } .none "f".toList (fun _ => 9)
      ⟨some .all, some fun k _ => k = 0, none⟩).1 0).bind fun t => t.recs[1]?.map (fun x => x.fields "f".toList)) = some 9 :=
  ⟨⟨rfl, rfl⟩, rfl, by decide +kernel⟩

/-! ## C64: default scopes -/

/-- C64 for COUNT and SUM: without a scope they work on all records, or on the rest with WHILE. -/
theorem C64_count_sum_partial {db : DB ρ} {a : Nat} {w : WS ρ} (h : At db .none a w) (hp : Positioned w)
    (F W : Option (Nat → ρ → Bool)) (e : Nat → ρ → Int) :
    let vs := processed (defaultScope false F.isSome W.isSome) (F.getD fun _ _ => true)
      (W.getD fun _ _ => true) w.recs w.index.toNat
    (countStmt db ⟨none, F, W⟩).2.1 = vs.length ∧
    (sumStmt db e ⟨none, F, W⟩).2.1 = (vs.filterMap fun k => (w.recs[k]?).map (e k)).sum := by
  intro vs
  have hd : (if W.isSome then Scope.rest else .all) = defaultScope false F.isSome W.isSome := by
    cases W <;> simp [defaultScope]
  constructor
  · simp only [countStmt, Option.getD_none, hd, condOf]
    exact (C23_count h hp _ _ _).1
  · simp only [sumStmt, Option.getD_none, hd, condOf]
    exact C23_sum h hp _ _ _ _

example : At { areas := [some (tbl [5, 6, 7] 1)], current := 0 } .none 0 (tbl [5, 6, 7] 1) ∧ Positioned (tbl [5, 6, 7] 1) ∧
    processed (defaultScope false true false) (fun _ x => x ≠ 6) (fun _ _ => true) (tbl [5, 6, 7] 1).recs 1 = [0, 2] :=
  ⟨⟨rfl, rfl⟩, .inr (by simp [tbl]), by decide⟩

/-- C64 for DELETE and RECALL without conditions: the current record. -/
theorem C64_delete_one_partial {db : DB Rec} {sel : Sel} {a : Nat} {w : WS Rec} (h : At db sel a w)
    (hp : Positioned w) (recall : Bool) (k : Nat) (x : Rec) (hx : w.recs[k]? = some x) :
    ((tableAt (deleteStmt db sel recall ⟨none, none, none⟩).1 a).bind fun t => t.recs[k]?) =
      some (if (k : Int) = w.index then { fields := x.fields, deleted := !recall } else x) := by
  have := C23_delete h hp (.next 1) recall (fun _ _ => true) (fun _ _ => true) k x hx
  rw [processed_true] at this
  simp only [deleteStmt, Option.getD_none, condOf] at this ⊢
  rw [this]
  obtain ⟨hk, _⟩ := List.getElem?_eq_some_iff.mp hx
  have hiff : k ∈ scopeRange (.next 1) w.index.toNat w.recs.length ↔ (k : Int) = w.index := by
    rcases hp with h0 | h0
    · rw [h0] at hk; simp at hk
    · simp only [scopeRange]
      by_cases hl : w.index.toNat < w.recs.length
      · obtain ⟨m, hm⟩ : ∃ m, w.recs.length - w.index.toNat = m + 1 :=
          ⟨w.recs.length - w.index.toNat - 1, by omega⟩
        rw [hm, List.range'_succ]
        simp
        omega
      · rw [show w.recs.length - w.index.toNat = 0 by omega]
        simp
        omega
  by_cases hki : (k : Int) = w.index
  · rw [if_pos hki, if_pos (hiff.mpr hki)]
  · rw [if_neg hki, if_neg fun h => hki (hiff.mp h)]

example : At { areas := [some (rtbl [5, 6, 7] 1)], current := 0 } .none 0 (rtbl [5, 6, 7] 1) ∧
    ((tableAt (deleteStmt { areas := [some (rtbl [5, 6, 7] 1)], current := 0 } .none false
      ⟨none, none, none⟩).1 0).map fun t => t.recs.map Rec.deleted) = some [false, true, false] :=
  ⟨⟨rfl, rfl⟩, by decide +kernel⟩

/-- C64 fails: DELETE FOR <condition> looks at the current record only; every other record that meets the condition
keeps its mark. -/
theorem C64_delete_for_fails {db : DB Rec} {sel : Sel} {a : Nat} {w : WS Rec} (h : At db sel a w)
    (hp : Positioned w) (recall : Bool) (c : Nat → Rec → Bool) (k : Nat) (x : Rec) (hx : w.recs[k]? = some x)
    (hc : c k x = true) (hk : (k : Int) ≠ w.index) :
    k ∈ processed (defaultScope true true false) c (fun _ _ => true) w.recs w.index.toNat ∧
    ((tableAt (deleteStmt db sel recall ⟨none, some c, none⟩).1 a).bind fun t => t.recs[k]?) = some x := by
  obtain ⟨hlen, _⟩ := List.getElem?_eq_some_iff.mp hx
  constructor
  · rw [show defaultScope true true false = .all from rfl, processed]
    rw [List.mem_filter]
    refine ⟨?_, by simp only [holds, hx, hc]⟩
    have hall : ∀ l : List Nat, (∀ i ∈ l, i < w.recs.length) → l.takeWhile (holds (fun _ _ => true) w.recs) = l := by
      intro l
      induction l with
      | nil => intro _; rfl
      | cons i l ih =>
        intro hi
        have hi0 := hi i (by simp)
        rw [List.takeWhile_cons_of_pos (by simp [holds, List.getElem?_eq_getElem hi0]), ih fun i h => hi i (by simp [h])]
    rw [hall _ (fun i hi => by simpa [scopeRange] using hi)]
    simpa [scopeRange] using hlen
  · have := C23_delete h hp (.next 1) recall c (fun _ _ => true) k x hx
    simp only [deleteStmt, Option.getD_none, condOf, Option.getD_some] at this ⊢
    rw [this, if_neg]
    intro hm
    have hm := (List.takeWhile_sublist _).subset (List.mem_filter.mp hm).1
    rcases hp with h0 | h0
    · rw [h0] at hlen; simp at hlen
    · simp only [scopeRange] at hm
      by_cases hl : w.index.toNat < w.recs.length
      · obtain ⟨m, hm'⟩ : ∃ m, w.recs.length - w.index.toNat = m + 1 := ⟨w.recs.length - w.index.toNat - 1, by omega⟩
        rw [hm', List.range'_succ] at hm
        simp at hm
        omega
      · rw [show w.recs.length - w.index.toNat = 0 by omega] at hm
        simp at hm

example : ((tableAt (deleteStmt { areas := [some (rtbl [5, 6, 7] 0)], current := 0 } .none false
    ⟨none, some fun k _ => decide (k ≠ 0), none⟩).1 0).bind fun t => t.recs[1]?) = some (rec1 6) :=
  (C64_delete_for_fails (w := rtbl [5, 6, 7] 0) ⟨rfl, rfl⟩ (.inr (by simp [rtbl])) false (fun k _ => decide (k ≠ 0)) 1 _ rfl (by decide) (by decide)).2

/-! ## C22: closing -/

/-- C22 for a number: that work area becomes free, all others keep their tables.  Missing: aliases
and USE alone, see `C22_alias_fails` and `C22_alone_fails`. -/
theorem C22_number_partial (db : DB ρ) (n : Nat) (h1 : 1 ≤ n) (h2 : n ≤ db.areas.length) :
    let r := useClose db (.num n)
    r.2 = none ∧ r.1.areas[n - 1]? = some none ∧ (∀ b, b ≠ n - 1 → r.1.areas[b]? = db.areas[b]?) ∧
      r.1.current = db.current := by
  have hg : getWorkarea db (.num n) = .ok (n : Int) := by
    simp [getWorkarea]; omega
  have hr : useClose db (.num n) = ({ db with areas := db.areas.set (n - 1) none }, none) := by
    unfold useClose
    rw [if_neg (by simp; omega), hg]
    have : ((n : Int) - 1) = ((n - 1 : Nat) : Int) := by omega
    simp only [this, setIndex_nat _ _ _ (show n - 1 < db.areas.length by omega)]
  rw [hr]
  refine ⟨rfl, ?_, ?_, rfl⟩
  · simp [List.getElem?_set]; omega
  · intro b hb
    simp [List.getElem?_set, Ne.symm hb]

example : (useClose { areas := [some (tbl [1] 0), some (tbl [2] 0)], current := 0 } (.num 2)).1.areas.map Option.isSome
    = [true, false] := by decide +kernel

/-- C22 fails: USE IN alias leaves the table of that alias open and closes the work area before it
(whatever table is there). -/
theorem C22_alias_fails (db : DB ρ) (s : Str) (a : Nat) (w : WS ρ) (h : At db (.str s) (a + 1) w) :
    let r := useClose db (.str s)
    r.2 = none ∧ r.1.areas[a + 1]? = some (some w) ∧ r.1.areas[a]? = some none := by
  have hr : useClose db (.str s) = ({ db with areas := db.areas.set a none }, none) := by
    unfold useClose
    rw [if_neg (by simp), h.1]
    have : (((a + 1 : Nat) : Int) - 1) = (a : Int) := by omega
    have hl := lt_of_at h
    simp only [this, setIndex_nat _ _ _ (show a < db.areas.length by omega)]
  have hl := lt_of_at h
  rw [hr]
  refine ⟨rfl, ?_, ?_⟩
  · simp only [List.getElem?_set]
    rw [if_neg (by omega)]; exact h.2
  · simp [List.getElem?_set]; omega

example : At { areas := [some { tbl [1] 0 with file := "a.dbf".toList }, some (tbl [2] 0)], current := 0 }
    (.str "T".toList) 1 (tbl [2] 0) := ⟨by decide +kernel, rfl⟩

/-- C22 fails: USE alone never closes the current table (when there is more than one work area). -/
theorem C22_alone_fails (db : DB ρ) (a : Nat) (w : WS ρ) (h : At db .none a w)
    (h2 : 2 ≤ db.areas.length) : (useClose db .none).1.areas[a]? = some (some w) := by
  have hl := lt_of_at h
  unfold useClose
  rw [if_neg (by simp), h.1]
  simp only
  by_cases ha : a = 0
  · subst ha
    have hset : setIndex db.areas (((0 : Nat) : Int) - 1) none
        = .ok (db.areas.set (db.areas.length - 1) none) := by
      unfold setIndex
      rw [if_pos (by omega), if_neg (by omega)]
      congr 2
      omega
    rw [hset]
    simp only [List.getElem?_set]
    rw [if_neg (by omega)]; exact h.2
  · have : ((a : Int) - 1) = ((a - 1 : Nat) : Int) := by omega
    rw [this, setIndex_nat _ _ _ (show a - 1 < db.areas.length by omega)]
    simp only [List.getElem?_set]
    rw [if_neg (by omega)]; exact h.2

example : At { areas := [some (tbl [1] 0), none], current := 0 } .none 0 (tbl [1] 0) := ⟨rfl, rfl⟩

end Props
