import Verif.Model.Deleted
import Verif.Props.Database
/-!
# C126: deleted records, SET DELETED and PACK
-/
namespace Props
open Model.Database Model.Deleted DatabaseAux
open Spec.Database (processed scopeRange holds changeAt)

namespace DeletedSpec

/-- The records of a table and the setting. -/
structure Table where
  on : Bool
  recs : List Rec

/-- Deleted records are not seen after SET DELETED ON. -/
def seen (on : Bool) (r : Rec) : Bool := !(on && r.deleted)

/-- What FoxPro does; PACK MEMO leaves the records as they are. -/
def step (t : Table) : Cmd → Table × List Rec
  | .set on => ({ t with on := on }, [])
  | .each forC act =>
    ({ t with recs := t.recs.map fun r => if seen t.on r && forC r then act r else r },
      t.recs.filter fun r => seen t.on r && forC r)
  | .pack .memo => (t, [])
  | .pack _ => ({ t with recs := t.recs.filter fun r => !r.deleted }, [])

def steps : Table → List Cmd → Table × List (List Rec)
  | t, [] => (t, [])
  | t, c :: cs => ((steps (step t c).1 cs).1, (step t c).2 :: (steps (step t c).1 cs).2)

/-- SET DELETED ON and PACK MEMO do not occur. -/
def Plain (cs : List Cmd) : Prop := Cmd.set true ∉ cs ∧ Cmd.pack .memo ∉ cs

end DeletedSpec
open DeletedSpec

namespace DeletedAux

/-- The selected work area holds `w`. -/
def Open (db : DB Rec) (a : Nat) (w : WS Rec) : Prop := db.current = a ∧ db.areas[a]? = some (some w)

theorem Open.at_ {db : DB Rec} {a : Nat} {w : WS Rec} (h : Open db a w) : At db .none a w := ⟨by simp [getWorkarea, h.1], h.2⟩

theorem current_open {db : DB Rec} {a : Nat} {w : WS Rec} (h : Open db a w) : current db = w.recs := by
  unfold current
  rw [tableInfo_at h.at_]

/-- A command with scope ALL does not depend on the position. -/
theorem all_any (w : WS Rec) (i : Int) (F W : Nat → Rec → Bool) (act : Nat → Rec → Rec) (hne : w.recs ≠ []) :
    w.getRecords .all F W act = ({ w with index := i } : WS Rec).getRecords .all F W act := by
  have h0 : 0 < w.recs.length := List.length_pos_iff.mpr hne
  have : ∀ j, ({ w with index := j } : WS Rec).goto 0 = .ok { w with index := 0 } := by
    intro j
    unfold WS.goto
    rw [if_pos (by simp; omega)]
    simp
  have hw : w.goto 0 = .ok { w with index := 0 } := this w.index
  unfold WS.getRecords
  simp only [this i, hw]

theorem filter_indices (F : Rec → Bool) : ∀ (l pre : List Rec),
    ((List.range' pre.length l.length).filter (holds (fun _ x => F x) (pre ++ l))).filterMap (fun k => (pre ++ l)[k]?) = l.filter F
  | [], pre => by simp
  | x :: xs, pre => by
    have ih := filter_indices F xs (pre ++ [x])
    simp only [List.length_append, List.length_cons, List.length_nil, Nat.zero_add, List.append_assoc, List.cons_append, List.nil_append] at ih
    rw [List.length_cons, List.range'_succ]
    have hx : (pre ++ x :: xs)[pre.length]? = some x := by simp
    rw [List.filter_cons]
    have hh : holds (fun _ x => F x) (pre ++ x :: xs) pre.length = F x := by simp [holds, hx]
    rw [hh, List.filter_cons]
    cases F x with
    | false => exact ih
    | true =>
      simp only [if_true]
      rw [List.filterMap_cons, hx]
      exact congrArg _ ih

theorem takeWhile_all {p : Nat → Bool} : ∀ {l : List Nat}, (∀ k ∈ l, p k = true) → l.takeWhile p = l
  | [], _ => rfl
  | k :: l, h => by
    rw [List.takeWhile_cons, h k List.mem_cons_self, if_pos rfl, takeWhile_all fun j hj => h j (List.mem_cons_of_mem _ hj)]

theorem processed_all (F : Rec → Bool) (l : List Rec) :
    (processed .all (fun _ x => F x) (fun _ _ => true) l 0).filterMap (fun k => l[k]?) = l.filter F := by
  unfold processed scopeRange
  have h1 : (List.range l.length).takeWhile (holds (fun _ _ => true) l) = List.range l.length := by
    exact takeWhile_all (fun k hk => holds_true (List.mem_range.mp hk))
  rw [h1]
  have := filter_indices F l []
  simpa [List.range_eq_range'] using this

theorem change_all (F : Rec → Bool) (act : Rec → Rec) (l : List Rec) :
    changeAt (processed .all (fun _ x => F x) (fun _ _ => true) l 0) (fun _ x => act x) l = l.map fun r => if F r then act r else r := by
  apply List.ext_getElem?
  intro k
  rw [changeAt_get, List.getElem?_map]
  cases hk : l[k]? with
  | none => rfl
  | some x =>
    obtain ⟨hlt, -⟩ := List.getElem?_eq_some_iff.mp hk
    have : k ∈ processed .all (fun _ x => F x) (fun _ _ => true) l 0 ↔ F x = true := by
      unfold processed scopeRange
      have h1 : (List.range l.length).takeWhile (holds (fun _ _ => true) l) = List.range l.length := by
        exact takeWhile_all (fun k hk => holds_true (List.mem_range.mp hk))
      rw [h1, List.mem_filter, List.mem_range]
      have hg : l[k] = x := Option.some.inj ((List.getElem?_eq_getElem hlt).symm.trans hk)
      simp [holds, hlt, hg]
    simp only [Option.map_some, this]

/-- What a command with scope ALL does, wherever the record pointer is. -/
theorem run_each {s : Sys} {a : Nat} {w : WS Rec} (h : Open s.db a w) (F : Rec → Bool) (act : Rec → Rec) :
    (run s (.each F act)).2 = w.recs.filter F ∧ (run s (.each F act)).1.on = s.on ∧
    ∃ w', Open (run s (.each F act)).1.db a w' ∧ w'.recs = w.recs.map (fun r => if F r then act r else r) ∧
      ∀ b, b ≠ a → (run s (.each F act)).1.db.areas[b]? = s.db.areas[b]? := by
  -- the same table with the pointer on the first record
  let w0 : WS Rec := { w with index := 0 }
  let db0 : DB Rec := { s.db with areas := s.db.areas.set a (some w0) }
  have hlt : a < s.db.areas.length := lt_of_at h.at_
  have ho0 : Open db0 a w0 := ⟨h.1, by simp [db0, hlt]⟩
  have hp : Positioned w0 := Or.inr ⟨by simp [w0], by simp [w0]⟩
  have key := getRecords_at ho0.at_ hp .all (fun _ x => F x) (fun _ _ => true) (fun _ x => act x)
  obtain ⟨k1, ⟨j, k2, -⟩, k3, k4, -⟩ := key
  have hov : ¬ Overrun .all w0 := by simp [Overrun]
  have hcur : (getRecords db0 .none .all (fun _ x => F x) (fun _ _ => true) (fun _ x => act x)).1.current = a := by
    rw [k4 (k3.mpr hov)]; exact h.1
  by_cases hne : w.recs = []
  · have hr : getRecords s.db .none .all (fun _ x => F x) (fun _ _ => true) (fun _ x => act x) = (s.db, [], none) := by
      unfold getRecords Model.Database.select
      simp only [h.at_.1]
      have : tableInfo { s.db with current := (a : Int) } .none = .ok w := tableInfo_at ⟨rfl, h.2⟩
      simp only [this, hne, if_true]
    refine ⟨?_, rfl, w, ?_, ?_, ?_⟩
    · simp [run, hr, hne]
    · simpa [run, hr] using h
    · simp [hne]
    · intro b _; simp [run, hr]
  · have hr : getRecords s.db .none .all (fun _ x => F x) (fun _ _ => true) (fun _ x => act x) =
        getRecords db0 .none .all (fun _ x => F x) (fun _ _ => true) (fun _ x => act x) := by
      unfold getRecords Model.Database.select
      simp only [h.at_.1, ho0.at_.1]
      have t1 : tableInfo { s.db with current := (a : Int) } .none = .ok w := tableInfo_at ⟨rfl, h.2⟩
      have t0 : tableInfo { db0 with current := (a : Int) } .none = .ok w0 := tableInfo_at ⟨rfl, ho0.2⟩
      have hne0 : w0.recs ≠ [] := hne
      simp only [t1, t0, hne, hne0, if_false]
      rw [all_any w 0 _ _ _ hne]
      have p1 : ∀ x, putInfo { s.db with current := (a : Int) } .none x = { areas := s.db.areas.set a (some x), current := (a : Int) } :=
        fun x => putInfo_at ⟨rfl, h.2⟩
      have p0 : ∀ x, putInfo { db0 with current := (a : Int) } .none x = { areas := s.db.areas.set a (some x), current := (a : Int) } := by
        intro x
        have := putInfo_at (db := { db0 with current := (a : Int) }) (sel := .none) (a := a) (w := w0) (w' := x) ⟨rfl, ho0.2⟩
        rw [this]
        simp [db0]
      simp only [p1, p0]
      rfl
    refine ⟨?_, rfl, { w0 with recs := changeAt (processed .all (fun _ x => F x) (fun _ _ => true) w0.recs (pos w0)) (fun _ x => act x) w0.recs, index := j }, ?_, ?_, ?_⟩
    · show (getRecords s.db .none .all _ _ _).2.1.filterMap _ = _
      rw [hr, k1, current_open h]
      exact processed_all F w.recs
    · refine ⟨?_, ?_⟩
      · show (getRecords s.db .none .all _ _ _).1.current = _
        rw [hr, hcur]
      · show (getRecords s.db .none .all _ _ _).1.areas[a]? = _
        rw [hr, k2]
        simp [db0, hlt]
    · exact change_all F act w.recs
    · intro b hb
      show (getRecords s.db .none .all _ _ _).1.areas[b]? = _
      rw [hr, k2]
      simp [db0, List.getElem?_set, Ne.symm hb]

theorem run_pack {s : Sys} {a : Nat} {w : WS Rec} (h : Open s.db a w) (what : Pack) :
    (run s (.pack what)).1.on = s.on ∧ Open (run s (.pack what)).1.db a (WS.pack s.place w) := by
  refine ⟨rfl, ?_⟩
  have : (run s (.pack what)).1.db = { s.db with areas := s.db.areas.set a (some (WS.pack s.place w)) } := by
    simp only [run, pack, onTable, tableInfo_at h.at_]
    exact putInfo_at h.at_
  rw [this]
  exact ⟨h.1, by simp [lt_of_at h.at_]⟩

end DeletedAux
open DeletedAux

/-- C126: as long as SET DELETED is OFF, every sequence of commands with scope ALL and PACK sees and leaves the records that FoxPro
does.  Missing: SET DELETED ON (`C126_seen_iff`), PACK MEMO (`C126_memo_fails`), other scopes (C23). -/
theorem C126_history_partial (cs : List Cmd) (hcs : Plain cs) : ∀ (s : Sys) (a : Nat) (w : WS Rec), s.on = false → Open s.db a w →
    (runAll s cs).2 = (steps ⟨false, w.recs⟩ cs).2 ∧
    ∃ w', Open (runAll s cs).1.db a w' ∧ w'.recs = (steps ⟨false, w.recs⟩ cs).1.recs := by
  induction cs with
  | nil => intro s a w _ h; exact ⟨rfl, w, h, rfl⟩
  | cons c cs ih =>
    intro s a w hoff h
    have hp : Plain cs := ⟨fun hm => hcs.1 (List.mem_cons_of_mem _ hm), fun hm => hcs.2 (List.mem_cons_of_mem _ hm)⟩
    have next : ∀ w1, Open (run s c).1.db a w1 → (run s c).1.on = false → (step ⟨false, w.recs⟩ c).1 = ⟨false, w1.recs⟩ →
        (run s c).2 = (step ⟨false, w.recs⟩ c).2 →
        (runAll s (c :: cs)).2 = (steps ⟨false, w.recs⟩ (c :: cs)).2 ∧
        ∃ w', Open (runAll s (c :: cs)).1.db a w' ∧ w'.recs = (steps ⟨false, w.recs⟩ (c :: cs)).1.recs := by
      intro w1 ho hon hs hout
      obtain ⟨i1, w', i2, i3⟩ := ih hp (run s c).1 a w1 hon ho
      refine ⟨?_, w', i2, ?_⟩
      · show (run s c).2 :: _ = _ :: _
        rw [hout, i1, hs]
      · rw [i3]
        show _ = (steps (step ⟨false, w.recs⟩ c).1 cs).1.recs
        rw [hs]
    cases c with
    | set on =>
      cases on with
      | true => exact absurd List.mem_cons_self hcs.1
      | false => exact next w h rfl rfl rfl
    | each F act =>
      obtain ⟨e1, e2, w1, e3, e4, -⟩ := run_each h F act
      refine next w1 e3 (e2.trans hoff) ?_ (e1.trans ?_)
      · simp [step, seen, e4]
      · simp [step, seen]
    | pack what =>
      obtain ⟨e1, e2⟩ := run_pack h what
      cases what with
      | memo => exact absurd List.mem_cons_self hcs.2
      | both => exact next _ e2 (e1.trans hoff) rfl rfl
      | dbf => exact next _ e2 (e1.trans hoff) rfl rfl

namespace DeletedDemo
def row (n : Int) : Rec := { fields := fun _ => n, deleted := false }
def table : WS Rec := { name := [], file := "t.dbf".toList, recs := [row 1, row 2, row 3], index := 2, locate := none, found := false }
def sys : Sys := { place := fun _ => -1, on := false, db := { areas := [none, some table], current := 1 } }
/-- DELETE ALL FOR x > 1, RECALL ALL FOR x = 3, PACK, COUNT ALL -/
def program : List Cmd :=
  [.each (fun r => decide (1 < r.fields [])) (fun r => { r with deleted := true }),
   .each (fun r => decide (r.fields [] = 3)) (fun r => { r with deleted := false }),
   .pack .both, .each (fun _ => true) id]
end DeletedDemo

open DeletedDemo in
example : ((runAll sys program).2.map fun l => l.map fun r => r.fields []) = [[2, 3], [3], [], [1, 3]] := by
  rw [(C126_history_partial program ⟨by simp [program], by simp [program]⟩ sys 1 table rfl ⟨rfl, rfl⟩).1]
  rfl

/-- C126: after SET DELETED ON a command sees the records that FoxPro shows it exactly if none of the deleted ones meets its
condition. -/
theorem C126_seen_iff (s : Sys) (a : Nat) (w : WS Rec) (F : Rec → Bool) (act : Rec → Rec) (hon : s.on = true) (h : Open s.db a w) :
    (run s (.each F act)).2 = (step ⟨s.on, w.recs⟩ (.each F act)).2 ↔ ∀ r ∈ w.recs, r.deleted = true → F r = false := by
  rw [(run_each h F act).1, hon]
  simp only [step, seen, Bool.true_and]
  constructor
  · intro he r hr hd
    cases hF : F r with
    | false => rfl
    | true =>
      have : r ∈ w.recs.filter F := List.mem_filter.mpr ⟨hr, hF⟩
      rw [he] at this
      have := (List.mem_filter.mp this).2
      rw [hd] at this
      simp at this
  · intro hall
    apply List.filter_congr
    intro r hr
    cases hd : r.deleted with
    | false => simp
    | true => simp [hall r hr hd]

open DeletedDemo in
/-- DELETE ALL FOR x = 2, SET DELETED ON, COUNT ALL FOR x > 2 and COUNT ALL FOR x > 1 -/
example :
    let s := (runAll sys [.each (fun r => decide (r.fields [] = 2)) (fun r => { r with deleted := true }), .set true]).1
    (current s.db).map Rec.deleted = [false, true, false] ∧
    (run s (.each (fun r => decide (2 < r.fields [])) id)).2.length = 1 ∧ (run s (.each (fun r => decide (1 < r.fields [])) id)).2.length = 2 := by
  decide +kernel

/-- C126: PACK MEMO, which shall only shrink the memo file, removes the deleted records. -/
theorem C126_memo_fails (s : Sys) (a : Nat) (w : WS Rec) (h : Open s.db a w) (hd : ∃ r ∈ w.recs, r.deleted = true) :
    ∃ w', Open (run s (.pack .memo)).1.db a w' ∧ w'.recs.length < (step ⟨s.on, w.recs⟩ (.pack .memo)).1.recs.length := by
  refine ⟨WS.pack s.place w, (run_pack h .memo).2, ?_⟩
  obtain ⟨r, hr, hd⟩ := hd
  show (w.recs.filter fun r => !r.deleted).length < w.recs.length
  exact List.length_filter_lt_length_iff_exists.mpr ⟨r, hr, by simp [hd]⟩

open DeletedDemo in
example : ((current (run { sys with db := { areas := [none, some { table with recs := [row 1, { row 2 with deleted := true }] }], current := 1 } }
    (.pack .memo)).1.db).map fun r => r.fields []) = [1] := by
  decide +kernel

/-- C126: PACK does not go to the first record.  If `table.pack()` keeps the index, RECNO() is what it was; if it sets the index
before the first record, RECNO() is 0, and REPLACE, DELETE and the like without a scope do nothing until the next move. -/
theorem C126_pack_pointer_fails (s : Sys) (a : Nat) (w : WS Rec) (what : Pack) (h : Open s.db a w) :
    (s.place w.index = w.index → w.index ≠ 0 → recno (run s (.pack what)).1.db ≠ 1) ∧
    (s.place w.index = -1 → recno (run s (.pack what)).1.db ≠ 1 ∧
      ∀ (F W : Nat → Rec → Bool) (act : Nat → Rec → Rec) (n : Int),
        (getRecords (run s (.pack what)).1.db .none (.next n) F W act).2.1 = []) := by
  have ho := (run_pack h what).2
  generalize (run s (.pack what)).1.db = db at ho
  have hr : recno db = s.place w.index + 1 := by
    unfold recno
    have : tableInfo db (.num db.current) = .ok (WS.pack s.place w) := by
      have hat : At db (.num db.current) a (WS.pack s.place w) := by
        refine ⟨?_, ho.2⟩
        simp only [getWorkarea]
        split <;> simp [ho.1]
      exact tableInfo_at hat
    rw [this]
    rfl
  refine ⟨fun hp hn => by rw [hr, hp]; omega, fun hp => ⟨by rw [hr, hp]; omega, ?_⟩⟩
  intro F W act n
  unfold getRecords Model.Database.select
  simp only [ho.at_.1]
  have t1 : tableInfo { db with current := (a : Int) } .none = .ok (WS.pack s.place w) := tableInfo_at ⟨rfl, ho.2⟩
  simp only [t1]
  split
  · rfl
  · have : (WS.pack s.place w).getRecords (.next n) F W act = (WS.pack s.place w, [], none) := by
      unfold WS.getRecords
      simp [WS.record, WS.pack, hp]
    simp only [this]

open DeletedDemo in
example : recno (run sys (.pack .both)).1.db = 0 ∧ recno (run { sys with place := id } (.pack .both)).1.db = 3 := by decide +kernel

end Props
