import Verif.Model.Moves
import Verif.Props.Scan
/-!
# Properties of GO, SKIP and EOF() (C83, C84)
-/
namespace Props.MovesSpec
open Model.Moves

/-- FoxPro: on a table of `n` records the pointer is at record 1 … `n` or, as `n + 1`, behind the
last one.  `none`: the statement is an error. -/
def foxGo (n : Nat) : Target → Option Nat
  | .top => some 1
  | .bottom => some n
  | .record k => if 1 ≤ k ∧ k ≤ n then some k.toNat else none

/-- The number of records to move. -/
def amount : Amount → Int
  | .omitted => 1
  | .const k => k
  | .code k => k

/-- SKIP stops behind the last record and on the first; to leave them further is an error. -/
def foxSkip (n p : Nat) (k : Int) : Option Nat :=
  if 0 < k ∧ p = n + 1 then none
  else if (n : Int) < p + k then some (n + 1)
  else if p + k < 1 then some 1
  else some (p + k).toNat

def foxMove (n p : Nat) : Move → Option Nat
  | .go t => foxGo n t
  | .skip a => foxSkip n p (amount a)

/-- One statement after the other. -/
def foxMoves (n : Nat) : Nat → List Move → Option Nat
  | p, [] => some p
  | p, m :: ms => (foxMove n p m).bind fun q => foxMoves n q ms

/-- The statements that go astray: GO to a number below 1, SKIP by the constant 0 and SKIP back
beyond the first record. -/
def Astray (p : Nat) : Move → Prop
  | .go (.record k) => k < 1
  | .go _ => False
  | .skip a => a = .const 0 ∨ (p : Int) + amount a < 1

/-- No statement of the history goes astray. -/
def Straight (n : Nat) : Nat → List Move → Prop
  | _, [] => True
  | p, m :: ms => ¬ Astray p m ∧ ∀ q, foxMove n p m = some q → Straight n q ms

end Props.MovesSpec

namespace Props
open Model Model.Database Model.Moves Py DatabaseAux MovesSpec

variable {ρ : Type}

namespace MovesAux

/-- The table `w` with the pointer at `p` (1 = first record). -/
def put (w : WS ρ) (p : Nat) : WS ρ := { w with index := (p : Int) - 1 }

theorem move_ok {db : DB ρ} {sel : Sel} {a : Nat} {w : WS ρ} {p q : Nat} (h : At db sel a (put w p))
    (hn : 0 < w.recs.length) (hp : 1 ≤ p ∧ p ≤ w.recs.length + 1) (m : Move)
    (hm : foxMove w.recs.length p m = some q) (hs : ¬ Astray p m) :
    move db sel m = ({ db with areas := db.areas.set a (some (put w q)) }, none) ∧ 1 ≤ q ∧ q ≤ w.recs.length + 1 := by
  cases m with
  | go t =>
    have key : ∀ k : Int, ∀ r : Nat, (if k > 0 then k - 1 else k) = (if k > 0 then (r : Int) - 1 else k) → 1 ≤ r → r ≤ w.recs.length →
        (k > 0 ∨ (k = 0 ∧ r = 1) ∨ (k = -1 ∧ r = w.recs.length)) → (put w p).gotoNum k = (put w r, none) := by
      intro k r he h1 h2 h3
      have hidx : (put w p).goto (if k > 0 then k - 1 else k) = .ok (put w r) := by
        unfold WS.goto
        have hl : (put w p).recs.length = w.recs.length := rfl
        rw [hl]
        rcases h3 with h3 | ⟨h3, h4⟩ | ⟨h3, h4⟩
        · rw [if_pos h3] at he
          rw [if_pos h3] at he
          simp only [if_pos h3]
          rw [if_pos (by omega), if_neg (by omega)]
          simp [put, he]
        · subst h3; subst h4
          simp only [show ¬ ((0 : Int) > 0) by omega, if_false]
          rw [if_pos (by omega)]
          simp [put]
        · subst h3; subst h4
          simp only [show ¬ ((-1 : Int) > 0) by omega, if_false]
          rw [if_pos (by omega), if_pos (by omega)]
          simp only [put]
          have : (-1 : Int) + (w.recs.length : Nat) = (w.recs.length : Int) - 1 := by omega
          rw [this]
      simp only [WS.gotoNum, hidx]
    simp only [move, gotoCmd]
    rw [onTable_at h]
    cases t with
    | top =>
      simp only [foxMove, foxGo, Option.some.injEq] at hm; subst hm
      rw [show goArg Target.top = 0 from rfl, key 0 1 (by simp) (by omega) (by omega) (by simp)]
      exact ⟨rfl, by omega, by omega⟩
    | bottom =>
      simp only [foxMove, foxGo, Option.some.injEq] at hm; subst hm
      rw [show goArg Target.bottom = -1 from rfl, key (-1) w.recs.length (by simp) (by omega) (by omega) (by simp)]
      exact ⟨rfl, by omega, by omega⟩
    | record k =>
      simp only [foxMove, foxGo] at hm
      split at hm
      · rename_i hk
        cases hm
        rw [show goArg (Target.record k) = k from rfl, key k k.toNat (by rw [if_pos (by omega), if_pos (by omega)]; omega) (by omega) (by omega) (by omega)]
        exact ⟨rfl, by omega, by omega⟩
      · cases hm
  | skip x =>
    simp only [Astray, not_or, Int.not_lt] at hs
    obtain ⟨hs1, hs2⟩ := hs
    have harg : skipArg x = amount x := by
      cases x with
      | omitted => rfl
      | code n => rfl
      | const n =>
        simp only [skipArg, amount]
        rw [if_neg]; rintro rfl; exact hs1 rfl
    simp only [foxMove, foxSkip] at hm
    simp only [move, skipCmd]
    rw [onTable_at h, harg]
    generalize amount x = k at *
    have hskip : (put w p).skip k = (put w q, none) ∧ 1 ≤ q ∧ q ≤ w.recs.length + 1 := by
      unfold WS.skip
      have hl : (put w p).recs.length = w.recs.length := rfl
      have hi : (put w p).index = (p : Int) - 1 := rfl
      rw [hl, hi]
      split at hm
      · cases hm
      rename_i hne
      split at hm
      · rename_i h1
        cases hm
        by_cases hk0 : k = 0
        · have : p = w.recs.length + 1 := by omega
          subst hk0
          rw [if_pos rfl]; exact ⟨by rw [this], by omega, by omega⟩
        rw [if_neg hk0, if_neg (by omega), if_neg (by omega)]
        refine ⟨?_, by omega, by omega⟩
        simp only [WS.bottom, put]
        congr 2
        push_cast; omega
      · rename_i h1
        rw [if_neg (by omega)] at hm
        cases hm
        by_cases hk0 : k = 0
        · subst hk0
          rw [if_pos rfl]
          have : ((p : Int) + 0).toNat = p := by omega
          rw [this]; exact ⟨rfl, by omega, by omega⟩
        rw [if_neg hk0]
        have e : ((p : Int) - 1 + k) = (((p : Int) + k).toNat : Int) - 1 := by omega
        refine ⟨?_, by omega, by omega⟩
        by_cases hk : k < 0
        · rw [if_pos hk, if_neg (by omega), e]; rfl
        · rw [if_neg hk, if_pos (by omega), e]; rfl
    rw [hskip.1]
    exact ⟨rfl, hskip.2⟩

end MovesAux
open MovesAux

/-- C83 for histories of GO and SKIP on a table with records, from any position: as long as FoxPro
does not report an error, the program does not either, the table is unchanged but for its pointer,
which is where FoxPro has it, and the other work areas are unchanged.  Missing: `SKIP 0`, skipping
back beyond the first record and record numbers below 1 (see the `_fails` theorems). -/
theorem C83_history_partial {db : DB ρ} {sel : Sel} {a : Nat} {w : WS ρ} {p q : Nat} (ms : List Move)
    (h : At db sel a w) (hn : w.recs ≠ []) (hw : w.index = (p : Int) - 1) (hp : 1 ≤ p ∧ p ≤ w.recs.length + 1)
    (hm : foxMoves w.recs.length p ms = some q) (hs : Straight w.recs.length p ms) :
    (moves db sel ms).2 = none ∧ (moves db sel ms).1.current = db.current ∧
      (∀ b, b ≠ a → (moves db sel ms).1.areas[b]? = db.areas[b]?) ∧
      At (moves db sel ms).1 sel a { w with index := (q : Int) - 1 } := by
  have hpos : 0 < w.recs.length := List.length_pos_iff.mpr hn
  have hput : w = put w p := by rw [put, ← hw]
  induction ms generalizing db w p with
  | nil =>
    simp only [foxMoves, Option.some.injEq] at hm; subst hm
    exact ⟨rfl, rfl, fun _ _ => rfl, by rw [← hw]; exact h⟩
  | cons m ms ih =>
    simp only [foxMoves, Option.bind_eq_some_iff] at hm
    obtain ⟨r, hr, hm⟩ := hm
    obtain ⟨e, hr1, hr2⟩ := move_ok (hput ▸ h) hpos hp m hr hs.1
    have hat : At ({ db with areas := db.areas.set a (some (put w r)) } : DB ρ) sel a (put w r) := at_set h rfl rfl
    obtain ⟨h1, h2, h3, h4⟩ := ih (w := put w r) (p := r) hat hn rfl ⟨hr1, hr2⟩ hm (hs.2 r hr) hpos rfl
    simp only [moves, e]
    refine ⟨h1, h2, fun b hb => ?_, h4⟩
    rw [h3 b hb]
    simp [List.getElem?_set, Ne.symm hb]

example : (tableAt (moves { areas := [none, some (tbl [5, 6, 7] 0)], current := 1 } .none
      [.go .bottom, .skip .omitted, .skip (.code (-3)), .go (.record 2), .skip (.const 0x1)]).1 1).map WS.index = some 2 ∧
    foxMoves 3 1 [.go .bottom, .skip .omitted, .skip (.code (-3)), .go (.record 2), .skip (.const 0x1)] = some 3 := by decide +kernel

/-- C83: after the history RECNO() is the number of the current record, and behind the last record
one more than the number of records. -/
theorem C83_recno {db : DB ρ} {a : Nat} {w : WS ρ} {p : Nat} (h : At db .none a w) (hw : w.index = (p : Int) - 1) :
    recno db = p ∧ reccount db = w.recs.length := by
  have hc : db.current = (a : Int) := by
    have := h.1; simp only [getWorkarea, Except.ok.injEq] at this; exact this
  have hat : At db (.num db.current) a w := by
    refine ⟨?_, h.2⟩
    simp only [getWorkarea]
    split <;> rw [hc]
  unfold recno reccount
  rw [tableInfo_at hat]
  simp only [hw]
  exact ⟨by omega, trivial⟩

example : recno { areas := [some (tbl [5, 6, 7] 3)], current := 0 } = 4 := by decide +kernel

/-- C83: in a work area without a table RECNO() and RECCOUNT() are 0. -/
theorem C83_closed {db : DB ρ} {a : Nat} (hc : db.current = a) (ha : db.areas[a]? = some none) :
    recno db = 0 ∧ reccount db = 0 := by
  have ht : tableInfo db (.num db.current) = .error .attributeError := by
    have hn : ¬ (a : Int) < 0 := by omega
    simp [tableInfo, getWorkarea, hc, index, ha, hn]
  unfold recno reccount
  rw [ht]
  exact ⟨rfl, rfl⟩

example : recno (initial : DB Int) = 0 ∧ reccount (initial : DB Int) = 0 := C83_closed (a := 0) rfl rfl

/-- C83: a record number beyond the table is an error, and nothing changes. -/
theorem C83_out_of_range {db : DB ρ} {sel : Sel} {a : Nat} {w : WS ρ} (h : At db sel a w) (k : Int) (hk : (w.recs.length : Int) < k) :
    (move db sel (.go (.record k))).2 = some .indexError ∧ At (move db sel (.go (.record k))).1 sel a w := by
  have : w.gotoNum k = (w, some .indexError) := by
    unfold WS.gotoNum
    rw [if_pos (show k > 0 by omega)]
    unfold WS.goto
    rw [if_neg (by omega)]
  simp only [move, gotoCmd, goArg]
  rw [onTable_at h, this]
  exact ⟨rfl, at_set h rfl rfl⟩

example : (move { areas := [some (tbl [5, 6, 7] 1)], current := 0 } .none (.go (.record 4))).2 = some .indexError := by decide +kernel

/-- C83: an error ends the program: the statements behind it have no effect, and the pointer is where
the statements before it have left it. -/
theorem C83_error_stops {db : DB ρ} {sel : Sel} {a : Nat} {w : WS ρ} {p q : Nat} (ms rest : List Move) (k : Int)
    (h : At db sel a w) (hn : w.recs ≠ []) (hw : w.index = (p : Int) - 1) (hp : 1 ≤ p ∧ p ≤ w.recs.length + 1)
    (hm : foxMoves w.recs.length p ms = some q) (hs : Straight w.recs.length p ms) (hk : (w.recs.length : Int) < k) :
    (moves db sel (ms ++ .go (.record k) :: rest)).2 = some .indexError ∧
      At (moves db sel (ms ++ .go (.record k) :: rest)).1 sel a { w with index := (q : Int) - 1 } := by
  obtain ⟨h1, _, _, h4⟩ := C83_history_partial ms h hn hw hp hm hs
  obtain ⟨e1, e2⟩ := C83_out_of_range h4 k hk
  have app : ∀ (xs ys : List Move) (d : DB ρ), (moves d sel xs).2 = none → moves d sel (xs ++ ys) = moves (moves d sel xs).1 sel ys := by
    intro xs ys
    induction xs with
    | nil => intro d _; rfl
    | cons x xs ih =>
      intro d hd
      simp only [moves, List.cons_append] at hd ⊢
      cases hx : move d sel x with
      | mk d' oe =>
        cases oe with
        | none => simp only [hx] at hd ⊢; exact ih d' hd
        | some e => simp [hx] at hd
  rw [app ms _ db h1]
  cases hx : move (moves db sel ms).1 sel (.go (.record k)) with
  | mk d' oe =>
    rw [hx] at e1 e2
    simp only at e1 e2
    subst e1
    simp only [moves, hx]
    exact ⟨trivial, e2⟩

example : (moves { areas := [some (tbl [5, 6, 7] 0)], current := 0 } .none [.skip .omitted, .go (.record 4), .skip .omitted]).2 = some .indexError ∧
    (tableAt (moves { areas := [some (tbl [5, 6, 7] 0)], current := 0 } .none [.skip .omitted, .go (.record 4), .skip .omitted]).1 0).map WS.index =
      some 1 := by decide +kernel

/-- C83 does not hold for SKIP 0, which moves to the next record. -/
theorem C83_skip_zero_fails {db : DB ρ} {sel : Sel} {a : Nat} {w : WS ρ} {p : Nat} (h : At db sel a w)
    (hw : w.index = (p : Int) - 1) (hp : 1 ≤ p ∧ p < w.recs.length) :
    foxMove w.recs.length p (.skip (.const 0)) = some p ∧ (move db sel (.skip (.const 0))).2 = none ∧
      At (move db sel (.skip (.const 0))).1 sel a { w with index := (p + 1 : Nat) - 1 } := by
  refine ⟨?_, ?_⟩
  · show foxSkip _ p 0 = _
    unfold foxSkip
    rw [if_neg (by omega), if_neg (by omega), if_neg (by omega)]
    simp
  · have : w.skip 1 = ({ w with index := ((p + 1 : Nat) : Int) - 1 }, none) := by
      unfold WS.skip
      rw [if_neg (by omega), if_neg (by omega), hw, if_pos (by omega)]
      congr 2; omega
    simp only [move, skipCmd]
    rw [show skipArg (.const 0) = 1 from rfl, onTable_at h, this]
    exact ⟨rfl, at_set h rfl rfl⟩

/-- C83 does not hold for skipping back beyond the first record, which is an exception; the pointer
is then before the first record. -/
theorem C83_skip_back_fails {db : DB ρ} {sel : Sel} {a : Nat} {w : WS ρ} {p : Nat} (h : At db sel a w)
    (hw : w.index = (p : Int) - 1) (hp : 1 ≤ p ∧ p ≤ w.recs.length) (k : Int) (hk : (p : Int) + k < 1) :
    foxMove w.recs.length p (.skip (.code k)) = some 1 ∧ (move db sel (.skip (.code k))).2 = some .bof ∧
      At (move db sel (.skip (.code k))).1 sel a { w with index := -1 } := by
  refine ⟨?_, ?_⟩
  · show foxSkip _ p k = _
    unfold foxSkip
    rw [if_neg (by omega), if_neg (by omega), if_pos hk]
  · have : w.skip k = ({ w with index := -1 }, some .bof) := by
      unfold WS.skip
      rw [if_neg (by omega), if_pos (by omega), hw, if_pos (by omega)]; rfl
    simp only [move, skipCmd]
    rw [show skipArg (.code k) = k from rfl, onTable_at h, this]
    exact ⟨rfl, at_set h rfl rfl⟩

/-- C83 does not hold for record numbers 0, -1, -2, …: no error, but the first record, the last one,
the one before. -/
theorem C83_go_negative_fails {db : DB ρ} {sel : Sel} {a : Nat} {w : WS ρ} (h : At db sel a w) (k : Nat)
    (hk : 1 ≤ k ∧ k ≤ w.recs.length) :
    foxMove w.recs.length 1 (.go (.record (-k))) = none ∧ (move db sel (.go (.record (-k)))).2 = none ∧
      At (move db sel (.go (.record (-k)))).1 sel a { w with index := (w.recs.length : Int) - k } := by
  refine ⟨?_, ?_⟩
  · simp only [foxMove, foxGo]; rw [if_neg (by omega)]
  · have : w.gotoNum (-k) = ({ w with index := (w.recs.length : Int) - k }, none) := by
      unfold WS.gotoNum
      rw [if_neg (show ¬ (-(k : Int)) > 0 by omega)]
      unfold WS.goto
      rw [if_pos (by omega), if_pos (by omega)]
      simp only
      congr 2; omega
    simp only [move, gotoCmd, goArg]
    rw [onTable_at h, this]
    exact ⟨rfl, at_set h rfl rfl⟩

/-- C83 does not hold for an empty table: GO TOP and GO BOTTOM are exceptions. -/
theorem C83_empty_fails {db : DB ρ} {sel : Sel} {a : Nat} {w : WS ρ} (h : At db sel a w) (hw : w.recs = []) :
    (move db sel (.go .top)).2 = some .indexError ∧ (move db sel (.go .bottom)).2 = some .indexError := by
  simp only [move, gotoCmd]
  rw [onTable_at h, onTable_at h]
  simp [goArg, WS.gotoNum, WS.goto, hw]

/-! ## C84: the end of the file -/

/-- C84, what holds: EOF() is false on every record but the last, and true behind the last one. -/
theorem C84_eof_partial {db : DB ρ} {sel : Sel} {a : Nat} {w : WS ρ} {p : Nat} (h : At db sel a w)
    (hw : w.index = (p : Int) - 1) :
    (p < w.recs.length → eof db sel = .ok false) ∧ (p = w.recs.length + 1 → eof db sel = .ok true) := by
  unfold eof
  rw [tableInfo_at h]
  simp only [WS.eof, hw, Except.ok.injEq, decide_eq_false_iff_not, decide_eq_true_eq]
  omega

example : eof { areas := [some (tbl [5, 6, 7] 1)], current := 0 } .none = .ok false ∧
    eof { areas := [some (tbl [5, 6, 7] 3)], current := 0 } .none = .ok true := by decide +kernel

/-- C84 does not hold on the last record, where EOF() is true already. -/
theorem C84_last_fails {db : DB ρ} {sel : Sel} {a : Nat} {w : WS ρ} (h : At db sel a w)
    (hw : w.index = (w.recs.length : Int) - 1) : eof db sel = .ok true := by
  unfold eof
  rw [tableInfo_at h]
  simp only [WS.eof, hw, Except.ok.injEq, decide_eq_true_eq]
  omega

/-- C84 does not hold in a work area without a table, where EOF() and BOF() end with an exception. -/
theorem C84_closed_fails {db : DB ρ} {a : Nat} (hc : db.current = a) (ha : db.areas[a]? = some none) :
    eof db .none = .error .attributeError ∧ bof db .none = .error .attributeError := by
  have ht : tableInfo db .none = .error .attributeError := by
    have hn : ¬ (a : Int) < 0 := by omega
    simp [tableInfo, getWorkarea, hc, index, ha, hn]
  unfold eof bof
  rw [ht]
  exact ⟨rfl, rfl⟩

example : (initial : DB Int).current = (0 : Nat) ∧ (initial : DB Int).areas[0]? = some none := ⟨rfl, rfl⟩

/-- C84 does not hold on the first record, where BOF() is true already. -/
theorem C84_first_fails {db : DB ρ} {sel : Sel} {a : Nat} {w : WS ρ} (h : At db sel a w)
    (hw : w.index = 0) : bof db sel = .ok true := by
  unfold bof
  rw [tableInfo_at h]
  simp [WS.bof, hw]

/-- C84 does not hold for the loop `DO WHILE NOT EOF()` … `SKIP` … `ENDDO`: started on record
`k + 1` of any table, it goes through the records from there to the last but one, in order, and
ends on the last one without having processed it. -/
theorem C84_loop_fails {db : DB ρ} {a : Nat} {w : WS ρ} (k fuel : Nat) (h : At db .none a w)
    (hw : w.index = (k : Int)) (hk : k < w.recs.length) (hf : w.recs.length - k ≤ fuel) :
    (untilEof fuel db).2.2 = none ∧ (untilEof fuel db).2.1 = (w.recs.drop k).dropLast ∧
      At (untilEof fuel db).1 .none a { w with index := (w.recs.length : Int) - 1 } := by
  induction fuel generalizing db w k with
  | zero => omega
  | succ fuel ih =>
    have he : eof db .none = .ok (decide (w.recs.length ≤ k + 1)) := by
      unfold eof
      rw [tableInfo_at h]
      simp only [WS.eof, hw]
      congr 1
      exact decide_eq_decide.mpr (by omega)
    unfold untilEof
    rw [he]
    by_cases hlast : w.recs.length ≤ k + 1
    · have hkk : k + 1 = w.recs.length := by omega
      rw [decide_eq_true hlast]
      simp only
      refine ⟨trivial, ?_, ?_⟩
      · rw [List.drop_eq_getElem_cons hk, List.drop_eq_nil_of_le (by omega)]; rfl
      · have : ((w.recs.length : Int) - 1) = w.index := by rw [hw]; omega
        rw [this]; exact h
    · rw [decide_eq_false hlast]
      simp only
      have hskip : w.skip 1 = ({ w with index := ((k + 1 : Nat) : Int) }, none) := by
        unfold WS.skip
        rw [if_neg (by omega), if_neg (by omega), hw, if_pos (by omega)]
        rfl
      have hmv : move db .none (.skip .omitted) = ({ db with areas := db.areas.set a (some { w with index := ((k + 1 : Nat) : Int) }) }, none) := by
        simp only [move, skipCmd]
        rw [show skipArg .omitted = 1 from rfl, onTable_at h, hskip]
      have hat : At ({ db with areas := db.areas.set a (some { w with index := ((k + 1 : Nat) : Int) }) } : DB ρ) .none a { w with index := ((k + 1 : Nat) : Int) } :=
        at_set h rfl rfl
      obtain ⟨h1, h2, h3⟩ := ih (w := { w with index := ((k + 1 : Nat) : Int) }) (k + 1) hat rfl (by simp only; omega) (by simp only; omega)
      rw [hmv]
      simp only
      refine ⟨h1, ?_, h3⟩
      rw [h2, tableInfo_at h]
      simp only [WS.record, hw]
      rw [if_neg (by omega)]
      simp only [Int.toNat_natCast, List.getElem?_eq_getElem hk, Option.toList_some]
      rw [List.drop_eq_getElem_cons hk, List.dropLast_cons_of_ne_nil]
      · rfl
      · intro hnil
        have := List.drop_eq_nil_iff.mp hnil
        omega

example : (untilEof 9 { areas := [some (tbl [5, 6, 7] 0)], current := 0 }).2.1 = [5, 6] := by decide +kernel

end Props
