import Verif.Model.AppendFrom
import Verif.Props.Scan
/-!
# C164: APPEND FROM
-/
namespace Props
open Model.Database Model.AppendFrom DatabaseAux

namespace AppendFromSpec

/-- The fields of the records that FoxPro appends: those of the records of the source, in its order, that fulfil the condition
of FOR and are not deleted, or all such records without SET DELETED ON. -/
def fox (deleted : Bool) (forC : Option (Rec → Bool)) : List Rec → List (Str → Int)
  | [] => []
  | r :: rs =>
    if (deleted = true ∧ r.deleted = true) ∨ forC.map (fun c => c r) = some false then fox deleted forC rs
    else r.fields :: fox deleted forC rs

/-- The fields of the records of a work area. -/
def fields (db : DB Rec) (a : Nat) : List (Str → Int) :=
  match db.areas[a]? with
  | some (some w) => w.recs.map Rec.fields
  | _ => []

end AppendFromSpec

namespace AppendFromAux
open AppendFromSpec

theorem loop_recs (lib : Lib) : ∀ (rs : List Rec) (w : WS Rec), (lib.loop rs w).recs = w.recs ++ rs.map lib.copy
  | [], w => by simp [Lib.loop]
  | r :: rs, w => by rw [Lib.loop, loop_recs lib rs]; simp [Lib.append]

theorem fields_copy (lib : Lib) (rs : List Rec) : (rs.map lib.copy).map Rec.fields = rs.map Rec.fields := by
  rw [List.map_map]; exact List.map_congr_left fun r _ => lib.keeps r

theorem run_plain (lib : Lib) {db : DB Rec} {a : Nat} {w : WS Rec} (h : At db .none a w) (source : Str) {src : List Rec}
    (hl : lib.load (tableFile source) = some src) :
    run lib db ⟨source, none, none⟩ = ({ db with areas := db.areas.set a (some (lib.loop src w)) }, none) := by
  simp only [run, Option.isSome_none, Bool.or_self, Bool.false_eq_true, if_false, appendFrom]
  rw [onTable_at h]
  simp [hl]

theorem fields_at {db : DB Rec} {a : Nat} {w : WS Rec} (h : db.areas[a]? = some (some w)) : fields db a = w.recs.map Rec.fields := by
  rw [fields, h]

theorem fields_plain (lib : Lib) {db : DB Rec} {a : Nat} {w : WS Rec} (h : At db .none a w) (source : Str) {src : List Rec}
    (hl : lib.load (tableFile source) = some src) :
    fields (run lib db ⟨source, none, none⟩).1 a = fields db a ++ src.map Rec.fields := by
  rw [run_plain lib h source hl, fields_at h.2, fields_at (w := lib.loop src w) (by simp [List.getElem?_set, lt_of_at h])]
  rw [loop_recs, List.map_append, fields_copy]

theorem fox_length (on : Bool) : ∀ src : List Rec, (fox on none src).length ≤ src.length
  | [] => Nat.le_refl _
  | r :: rs => by
    have := fox_length on rs
    rw [fox]; split <;> simp <;> omega

theorem fox_all (on : Bool) : ∀ src : List Rec, fox on none src = src.map Rec.fields ↔ (on = true → ∀ r ∈ src, r.deleted = false)
  | [] => by simp [fox]
  | r :: rs => by
    rw [fox]
    by_cases h : on = true ∧ r.deleted = true
    · rw [if_pos (.inl h)]
      constructor
      · intro he
        have h1 := fox_length on rs
        have h2 := congrArg List.length he
        simp at h2; omega
      · intro hr
        have := hr h.1 r (by simp)
        rw [h.2] at this; cases this
    · rw [if_neg (by simp; simpa using h), List.map_cons, List.cons.injEq]
      simp only [true_and, fox_all on rs, List.mem_cons, forall_eq_or_imp]
      constructor
      · intro hr ho
        refine ⟨?_, hr ho⟩
        cases hd : r.deleted with
        | false => rfl
        | true => exact absurd ⟨ho, hd⟩ h
      · intro hr ho
        exact (hr ho).2

end AppendFromAux
open AppendFromSpec AppendFromAux

/-- C164 for APPEND FROM without FOR and TYPE: all records of the source come behind those of the selected table, in their order and with
their fields; the records that were there, the other work areas and the selected one stay. Missing: FOR, TYPE and SET DELETED ON. -/
theorem C164_records_partial (lib : Lib) {db : DB Rec} {a : Nat} {w : WS Rec} (h : At db .none a w) (source : Str) {src : List Rec}
    (hl : lib.load (tableFile source) = some src) :
    let r := run lib db ⟨source, none, none⟩
    r.2 = none ∧ r.1.current = db.current ∧ (∀ b, b ≠ a → r.1.areas[b]? = db.areas[b]?) ∧
      fields r.1 a = fields db a ++ fox false none src ∧
      ∃ w', tableAt r.1 a = some w' ∧ w'.name = w.name ∧ w'.recs.take w.recs.length = w.recs ∧ w'.recs.length = w.recs.length + src.length := by
  intro r
  have hr : r = ({ db with areas := db.areas.set a (some (lib.loop src w)) }, none) := run_plain lib h source hl
  have hn : ∀ (rs : List Rec) (w : WS Rec), (lib.loop rs w).name = w.name := by
    intro rs
    induction rs with
    | nil => intro w; rfl
    | cons x xs ih => intro w; rw [Lib.loop, ih]; rfl
  have hf : fields r.1 a = fields db a ++ fox false none src := by
    rw [(fox_all false src).2 (by simp)]
    exact fields_plain lib h source hl
  refine ⟨by rw [hr], by rw [hr], fun b hb => ?_, hf, lib.loop src w, ?_, hn _ _, ?_, ?_⟩
  · rw [hr]; exact List.getElem?_set_ne (Ne.symm hb)
  · rw [hr]; simp [tableAt, List.getElem?_set, lt_of_at h]
  · rw [loop_recs]; simp
  · rw [loop_recs]; simp

namespace AppendFromDemo
def lib : Lib where
  load f := if f = "old.dbf".toList then some [⟨fun _ => 5, false⟩, ⟨fun _ => 6, true⟩] else none
  copy r := r
  place i := i
  keeps _ := rfl
def table : WS Rec := { name := "t".toList, file := "t.dbf".toList, recs := [⟨fun _ => 4, false⟩], index := 0, locate := none, found := false }
def db : DB Rec := { areas := [none, some table], current := 1 }
end AppendFromDemo

example : At AppendFromDemo.db .none 1 AppendFromDemo.table := ⟨rfl, rfl⟩
example : AppendFromDemo.lib.load (tableFile "old".toList) = some [⟨fun _ => 5, false⟩, ⟨fun _ => 6, true⟩] := rfl
example : (fields (run AppendFromDemo.lib AppendFromDemo.db ⟨"old".toList, none, none⟩).1 1).map (fun f => f []) = [4, 5, 6] := by decide +kernel

/-- C164, exactly: APPEND FROM without FOR and TYPE adds the records that FoxPro adds precisely if SET DELETED is OFF or no record of the
source is deleted. -/
theorem C164_deleted_iff (lib : Lib) {db : DB Rec} {a : Nat} {w : WS Rec} (h : At db .none a w) (source : Str) {src : List Rec}
    (hl : lib.load (tableFile source) = some src) (deleted : Bool) :
    fields (run lib db ⟨source, none, none⟩).1 a = fields db a ++ fox deleted none src ↔ (deleted = true → ∀ r ∈ src, r.deleted = false) := by
  rw [fields_plain lib h source hl, List.append_cancel_left_eq, ← fox_all deleted src]
  exact ⟨Eq.symm, Eq.symm⟩

example : (fox true none [⟨fun _ => 5, false⟩, ⟨fun _ => 6, true⟩]).map (fun f => f []) = [5] := by decide +kernel

/-- C164 fails with FOR and with TYPE: nothing is appended, and there is an error instead, even if FoxPro adds records. -/
theorem C164_clause_fails (lib : Lib) (db : DB Rec) (s : Stmt) (hs : s.forC ≠ none ∨ s.type ≠ none) :
    (run lib db s).2 = some .typeError ∧ ∀ (a : Nat) (deleted : Bool) (src : List Rec) (r : Rec), r ∈ src → r.deleted = false →
      (∀ c, s.forC = some c → c r = true) → fields (run lib db s).1 a ≠ fields db a ++ fox deleted s.forC src := by
  have hr : run lib db s = (db, some .typeError) := by
    rw [run, if_pos]
    rcases hs with hs | hs
    · simp [Option.isSome_iff_ne_none.2 hs]
    · simp [Option.isSome_iff_ne_none.2 hs]
  refine ⟨by rw [hr], fun a deleted src r hm hd hc he => ?_⟩
  rw [hr] at he
  have hn : fox deleted s.forC src = [] := by
    simpa using he.symm
  clear he hr
  induction src with
  | nil => cases hm
  | cons x xs ih =>
    rw [fox] at hn
    split at hn
    · rename_i hx
      rcases List.mem_cons.1 hm with rfl | hm
      · rcases hx with hx | hx
        · rw [hd] at hx; exact absurd hx.2 (by decide)
        · obtain ⟨c, hc1, hc2⟩ := Option.map_eq_some_iff.1 hx
          rw [hc c hc1] at hc2; cases hc2
      · exact ih hm hn
    · cases hn

example : (run AppendFromDemo.lib AppendFromDemo.db ⟨"old".toList, some fun r => decide (r.fields [] < 6), none⟩).2 = some .typeError ∧
    (fox false (some fun r => decide (r.fields [] < 6)) [⟨fun _ => 5, false⟩, ⟨fun _ => 6, true⟩]).map (fun f => f []) = [5] := by decide +kernel

end Props
