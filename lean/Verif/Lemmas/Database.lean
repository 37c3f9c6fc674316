import Verif.Model.Database
import Verif.Spec.Database
/-!
# Lemmas about the database model
-/
namespace Model.Database
open Py Spec.Database

variable {ρ : Type}

theorem takeWhile_congr {α : Type} {p q : α → Bool} {l : List α} (h : ∀ x ∈ l, p x = q x) :
    l.takeWhile p = l.takeWhile q := by
  induction l with
  | nil => rfl
  | cons a l ih =>
    have ha := h a (by simp)
    have ih := ih (fun x hx => h x (by simp [hx]))
    simp [List.takeWhile_cons, ha, ih]

theorem mem_takeWhile_range {p : Nat → Bool} {i n k : Nat} (h : k ∈ (List.range' i n).takeWhile p) :
    i ≤ k ∧ k < i + n := by
  have := (List.takeWhile_subset p) h
  simp [List.mem_range'] at this
  omega

/-- The loop visits what it should and changes exactly that. -/
theorem recordsLoop_spec (cond : Int → Bool) (F W : Nat → ρ → Bool) (act : Nat → ρ → ρ) (fuel : Nat)
    (w : WS ρ) (i : Nat) (hi : w.index = (i : Int)) (hf : w.recs.length - i ≤ fuel)
    (hlen : i ≤ w.recs.length) :
    let vs := ((List.range' i (w.recs.length - i)).takeWhile
        (fun (k : Nat) => cond (k : Int) && holds W w.recs k)).filter (holds F w.recs)
    let r := recordsLoop cond F W act fuel w
    r.2 = vs ∧ (∃ j : Nat, i ≤ j ∧ j ≤ w.recs.length ∧
      r.1 = { w with recs := changeAt vs act w.recs, index := (j : Int) }) := by
  induction fuel generalizing w i with
  | zero =>
    have : w.recs.length - i = 0 := by omega
    simp only [recordsLoop, this, List.range'_zero, List.takeWhile_nil, List.filter_nil, true_and]
    refine ⟨i, by omega, by omega, ?_⟩
    have : changeAt [] act w.recs = w.recs := by
      unfold changeAt; apply List.ext_getElem <;> simp
    rw [this, ← hi]
  | succ fuel ih =>
    have nochange : changeAt [] act w.recs = w.recs := by
      unfold changeAt; apply List.ext_getElem <;> simp
    have hrec : w.record = w.recs[i]? := by
      have : ¬ ((i : Int) < 0) := by omega
      simp [WS.record, hi, this]
    have hk : w.index.toNat = i := by simp [hi]
    by_cases hlt : i < w.recs.length
    · have hget : w.recs[i]? = some w.recs[i] := List.getElem?_eq_getElem hlt
      have hr : List.range' i (w.recs.length - i) = i :: List.range' (i + 1) (w.recs.length - (i + 1)) := by
        rw [show w.recs.length - i = (w.recs.length - (i + 1)) + 1 by omega, List.range'_succ]
      have hW : holds W w.recs i = W i w.recs[i] := by simp [holds, hget]
      have hF : holds F w.recs i = F i w.recs[i] := by simp [holds, hget]
      have hci : cond w.index = cond (i : Int) := by rw [hi]
      simp only [recordsLoop, hrec, hget, hk, hr, List.takeWhile_cons, hW, hci]
      by_cases hc : (cond (i : Int) && W i w.recs[i]) = true
      · simp only [hc, if_true, List.filter_cons, hF]
        -- the workspace after the record has been handled
        generalize hw1 : (if F i w.recs[i] = true then
          { w with recs := w.recs.set i (act i w.recs[i]) } else w) = w1
        have l1 : w1.recs.length = w.recs.length := by subst hw1; split <;> simp
        have hother : ∀ j, i < j → w1.recs[j]? = w.recs[j]? := by
          intro j hj; subst hw1; split
          · simp [List.getElem?_set]; intro h; omega
          · rfl
        have hidx : w1.index = (i : Int) := by subst hw1; split <;> simp [hi]
        have hat : w1.recs[i]? = some (if F i w.recs[i] then act i w.recs[i] else w.recs[i]) := by
          subst hw1; split
          · simp [List.getElem?_set, hlt]
          · exact hget
        have hbefore : ∀ j, j < i → w1.recs[j]? = w.recs[j]? := by
          intro j hj; subst hw1; split
          · simp [List.getElem?_set]; intro h; omega
          · rfl
        have hfields : ∀ (rs : List ρ) (ix : Int), ({ w1 with recs := rs, index := ix } : WS ρ) = { w with recs := rs, index := ix } := by
          intro rs ix; subst hw1; split <;> rfl
        have cong : ∀ (c : Nat → ρ → Bool) k, i < k → holds c w1.recs k = holds c w.recs k := by
          intro c k hk; simp [holds, hother k hk]
        have tail_eq : ((List.range' (i + 1) (w1.recs.length - (i + 1))).takeWhile
              (fun (k : Nat) => cond (k : Int) && holds W w1.recs k)).filter (holds F w1.recs)
            = ((List.range' (i + 1) (w.recs.length - (i + 1))).takeWhile
              (fun (k : Nat) => cond (k : Int) && holds W w.recs k)).filter (holds F w.recs) := by
          rw [l1]
          have a1 : (List.range' (i + 1) (w.recs.length - (i + 1))).takeWhile
              (fun (k : Nat) => cond (k : Int) && holds W w1.recs k)
            = (List.range' (i + 1) (w.recs.length - (i + 1))).takeWhile
              (fun (k : Nat) => cond (k : Int) && holds W w.recs k) := by
            apply takeWhile_congr
            intro k hk
            simp [List.mem_range'] at hk
            rw [cong W k (by omega)]
          rw [a1]
          apply List.filter_congr
          intro k hk
          have := mem_takeWhile_range hk
          exact cong F k (by omega)
        generalize hvs : ((List.range' (i + 1) (w.recs.length - (i + 1))).takeWhile
              (fun (k : Nat) => cond (k : Int) && holds W w.recs k)).filter (holds F w.recs) = vs at *
        have hvsmem : ∀ k ∈ vs, i < k := by
          intro k hk; rw [← hvs] at hk
          have := mem_takeWhile_range (List.mem_filter.mp hk).1; omega
        have hall : changeAt vs act w1.recs
            = changeAt (if F i w.recs[i] = true then i :: vs else vs) act w.recs := by
          unfold changeAt
          apply List.ext_getElem?
          intro j
          rw [List.getElem?_mapIdx, List.getElem?_mapIdx]
          rcases Nat.lt_trichotomy j i with h | h | h
          · rw [hbefore j h]
            have h1 : j ∉ vs := fun hm => by have := hvsmem j hm; omega
            have h2 : j ≠ i := by omega
            have h3 : (j ∈ (if F i w.recs[i] = true then i :: vs else vs)) ↔ False := by
              split <;> simp [h1, h2]
            simp [h1, h3]
          · subst h
            rw [hat, hget]
            have h1 : j ∉ vs := fun hm => by have := hvsmem j hm; omega
            by_cases hFj : F j w.recs[j] = true <;> simp [hFj, h1]
          · rw [hother j h]
            have h2 : j ≠ i := by omega
            have h3 : (j ∈ (if F i w.recs[i] = true then i :: vs else vs)) ↔ j ∈ vs := by
              split <;> simp [h2]
            simp [h3]
        by_cases hend : i + 1 < w.recs.length
        · have hs : w1.skip1 = ({ w1 with index := ((i + 1 : Nat) : Int) }, false) := by
            unfold WS.skip1
            rw [hidx, l1, if_pos (by omega)]
            simp
          rw [hs]
          simp only [Bool.false_eq_true, if_false]
          obtain ⟨h1, j, h2, h3, h4⟩ := ih { w1 with index := ((i + 1 : Nat) : Int) } (i + 1) rfl
            (by simp only [l1]; omega) (by simp only [l1]; omega)
          simp only at h1 h2 h3 h4
          rw [tail_eq] at h1 h4
          rw [h4]
          refine ⟨?_, j, by omega, by omega, ?_⟩
          · rw [h1]
            split <;> simp
          · rw [hall]; exact hfields _ _
        · have hs : w1.skip1 = (w1.bottom, true) := by
            unfold WS.skip1
            rw [hidx, l1, if_neg (by omega)]
          have hnil : vs = [] := by
            rw [← hvs, show w.recs.length - (i + 1) = 0 by omega]; rfl
          rw [hs]
          simp only [if_true]
          refine ⟨?_, w.recs.length, by omega, by omega, ?_⟩
          · rw [hnil]
          · rw [← hall, hnil]
            have : changeAt [] act w1.recs = w1.recs := by
              unfold changeAt; apply List.ext_getElem <;> simp
            rw [this, ← hfields, ← l1]
            rfl
      · simp only [hc, Bool.false_eq_true, if_false, List.filter_nil]
        refine ⟨trivial, i, by omega, by omega, ?_⟩
        rw [nochange, ← hi]
    · have hn : w.recs[i]? = none := List.getElem?_eq_none (by omega)
      have : w.recs.length - i = 0 := by omega
      simp only [recordsLoop, hrec, hn, this, List.range'_zero, List.takeWhile_nil, List.filter_nil]
      refine ⟨trivial, i, by omega, by omega, ?_⟩
      rw [nochange, ← hi]


theorem takeWhile_and {α : Type} (p q : α → Bool) (l : List α) :
    l.takeWhile (fun a => p a && q a) = (l.takeWhile p).takeWhile q := by
  induction l with
  | nil => rfl
  | cons a t ih =>
    by_cases hp : p a = true
    · by_cases hq : q a = true
      · simp [hp, hq, ih]
      · simp [hp, hq]
    · simp [hp]

theorem takeWhile_lt_range' (i m n : Nat) :
    (List.range' i m).takeWhile (fun k => decide (k < i + n)) = (List.range' i m).take n := by
  induction m generalizing i n with
  | zero => simp
  | succ m ih =>
    rw [List.range'_succ]
    cases n with
    | zero => simp
    | succ n =>
      have h : i < i + (n + 1) := by omega
      simp only [List.takeWhile_cons, h, decide_true, List.take_succ_cons]
      have := ih (i + 1) n
      rw [show i + 1 + n = i + (n + 1) by omega] at this
      simp [this]

theorem takeWhile_scope_next (i m : Nat) (n : Int) :
    (List.range' i m).takeWhile (fun (k : Nat) => decide ((k : Int) < (i : Int) + n))
      = (List.range' i m).take n.toNat := by
  rw [← takeWhile_lt_range']
  apply takeWhile_congr
  intro k hk
  simp [List.mem_range'] at hk
  apply decide_eq_decide.mpr
  omega

theorem takeWhile_single (i m : Nat) (n : Int) (h : (i : Int) = n) (hm : 0 < m) :
    (List.range' i m).takeWhile (fun (k : Nat) => decide ((k : Int) = n)) = [i] := by
  cases m with
  | zero => omega
  | succ m =>
    rw [List.range'_succ, List.takeWhile_cons]
    simp only [h, decide_true, if_true]
    cases m with
    | zero => simp
    | succ m =>
      rw [List.range'_succ, List.takeWhile_cons]
      have : ¬ (((i + 1 : Nat) : Int) = n) := by omega
      simp only [this, decide_false, Bool.false_eq_true, if_false]

theorem changeAt_nil {act : Nat → ρ → ρ} (l : List ρ) : changeAt [] act l = l := by
  unfold changeAt; apply List.ext_getElem <;> simp

theorem changeAt_length {ks : List Nat} {act : Nat → ρ → ρ} (l : List ρ) :
    (changeAt ks act l).length = l.length := by
  simp [changeAt]

theorem goto_ok {w : WS ρ} {n : Nat} (h : n < w.recs.length) :
    w.goto (n : Int) = .ok { w with index := (n : Int) } := by
  unfold WS.goto
  rw [if_pos (by omega)]
  have : ¬ ((n : Int) < 0) := by omega
  simp [this]

/-- When the exceptions of `_get_records` happen. -/
def scopeErr (scope : Scope) (c len : Nat) : Bool :=
  match scope with
  | .next n => decide (c < len ∧ (len : Int) < c + n - 1)
  | .record n => decide ((len : Int) < n ∨ n - 1 < -(len : Int))
  | _ => false

/-- Where the record pointer is after the command. -/
def endPos (scope : Scope) (c len : Nat) : Int :=
  match scope with
  | .all => len
  | .rest => len
  | .next n => if c = len then len else if (c : Int) + n - 1 < 0 then -1 else c + n - 1
  | .record n => if n ≤ 0 then -1 else n - 1

theorem reset_ok {w : WS ρ} {s : Int} (h : s ≤ w.recs.length) :
    w.reset s = .ok { w with index := if s < 0 then -1 else s } := by
  unfold WS.reset
  by_cases h1 : s < 0
  · simp [h1, WS.top]
  · by_cases h2 : s = w.recs.length
    · rw [if_neg h1, if_pos h2, if_neg h1, WS.bottom, h2]
    · rw [if_neg h1, if_neg h2, if_neg h1]
      unfold WS.goto
      rw [if_pos (by omega), if_neg h1]

theorem reset_err {w : WS ρ} {s : Int} (h : (w.recs.length : Int) < s) :
    w.reset s = .error .indexError := by
  unfold WS.reset
  rw [if_neg (by omega), if_neg (by omega)]
  unfold WS.goto
  rw [if_neg (by omega)]

theorem ws_getRecords_spec (w : WS ρ) (c : Nat) (hc : w.index = (c : Int)) (hlen : c ≤ w.recs.length)
    (hne : 0 < w.recs.length) (scope : Scope) (F W : Nat → ρ → Bool) (act : Nat → ρ → ρ) :
    let vs := processed scope F W w.recs c
    let r := w.getRecords scope F W act
    r.2.1 = vs ∧ (∃ j, r.1 = { w with recs := changeAt vs act w.recs, index := j }) ∧
      r.2.2 = (if scopeErr scope c w.recs.length then some .indexError else none) ∧
      (r.2.2 = none → r.1.index = endPos scope c w.recs.length) := by
  intro vs r
  have hwc : w = { w with index := (c : Int) } := by rw [← hc]
  cases scope with
  | all =>
    have hg := goto_ok (w := w) (n := 0) hne
    obtain ⟨h1, j, h2, h3, h4⟩ := recordsLoop_spec (cond := fun _ => true) (F := F) (W := W) (act := act)
      w.recs.length { w with index := ((0 : Nat) : Int) } 0 rfl (by simp) (by simp)
    have hrec : ({ w with index := ((0 : Nat) : Int) } : WS ρ).record.isNone = false := by
      simp [WS.record, hne]
    have hr : r = ((recordsLoop (fun _ => true) F W act w.recs.length { w with index := ((0 : Nat) : Int) }).1.bottom,
        (recordsLoop (fun _ => true) F W act w.recs.length { w with index := ((0 : Nat) : Int) }).2, none) := by
      show w.getRecords .all F W act = _
      unfold WS.getRecords
      simp only [Int.ofNat_zero] at hg
      simp only [show (0 : Int) = ((0 : Nat) : Int) from rfl] at hg ⊢
      simp only [hg, hrec, Bool.false_eq_true, if_false]
    have hvs : vs = (List.filter (holds F w.recs)
        (List.takeWhile (fun k => true && holds W w.recs k) (List.range' 0 (w.recs.length - 0)))) := by
      simp [vs, processed, scopeRange, List.range_eq_range']
    simp only at h1 h4
    rw [hr, h1, h4, ← hvs]
    refine ⟨rfl, ⟨_, rfl⟩, rfl, fun _ => ?_⟩
    simp [WS.bottom, endPos, changeAt_length]
  | rest =>
    by_cases hlt : c < w.recs.length
    · obtain ⟨h1, j, h2, h3, h4⟩ := recordsLoop_spec (cond := fun _ => true) (F := F) (W := W) (act := act)
        w.recs.length w c hc (by omega) hlen
      have hrec : w.record.isNone = false := by
        have : ¬ ((c : Int) < 0) := by omega
        simp [WS.record, hc, hlt, this]
      have hr : r = ((recordsLoop (fun _ => true) F W act w.recs.length w).1.bottom,
          (recordsLoop (fun _ => true) F W act w.recs.length w).2, none) := by
        show w.getRecords .rest F W act = _
        unfold WS.getRecords
        simp only [hrec, Bool.false_eq_true, if_false]
      have hvs : vs = (List.filter (holds F w.recs)
          (List.takeWhile (fun k => true && holds W w.recs k) (List.range' c (w.recs.length - c)))) := by
        simp [vs, processed, scopeRange]
      rw [hr, h1, h4, ← hvs]
      refine ⟨rfl, ⟨_, rfl⟩, rfl, fun _ => ?_⟩
      simp [WS.bottom, endPos, changeAt_length]
    · have hrec : w.record.isNone = true := by
        simp [WS.record, hc]
        omega
      have hr : r = (w, [], none) := by
        show w.getRecords .rest F W act = _
        unfold WS.getRecords
        simp only [hrec, if_true]
      have hvs : vs = [] := by
        simp [vs, processed, scopeRange, show w.recs.length - c = 0 by omega]
      rw [hr, hvs, changeAt_nil]
      refine ⟨rfl, ⟨w.index, rfl⟩, rfl, fun _ => ?_⟩
      simp only [endPos, hc]; omega
  | next n =>
    by_cases hlt : c < w.recs.length
    · obtain ⟨h1, j, h2, h3, h4⟩ := recordsLoop_spec (cond := fun i => decide (i < w.index + n))
        (F := F) (W := W) (act := act) w.recs.length w c hc (by omega) hlen
      have hrec : w.record.isNone = false := by
        have : ¬ ((c : Int) < 0) := by omega
        simp [WS.record, hc, hlt, this]
      have hvs : vs = (List.filter (holds F w.recs)
          (List.takeWhile (fun (k : Nat) => decide ((k : Int) < w.index + n) && holds W w.recs k)
            (List.range' c (w.recs.length - c)))) := by
        simp only [vs, processed, scopeRange]
        rw [takeWhile_and, hc, takeWhile_scope_next]
      rw [← hvs] at h1 h4
      generalize hL : recordsLoop (fun i => decide (i < w.index + n)) F W act w.recs.length w = L at h1 h4
      have hlen' : L.1.recs.length = w.recs.length := by rw [h4]; simp [changeAt_length]
      by_cases hov : (w.recs.length : Int) < c + n - 1
      · have hr : r = (L.1, L.2, some .indexError) := by
          show w.getRecords (.next n) F W act = _
          unfold WS.getRecords
          simp only [hrec, Bool.false_eq_true, if_false, hL]
          rw [reset_err (by rw [hlen', hc]; exact hov)]
        rw [hr, h1, h4]
        refine ⟨rfl, ⟨_, rfl⟩, ?_, fun h => by simp at h⟩
        rw [if_pos (by simp [scopeErr]; omega)]
      · have hr : r = ({ L.1 with index := if w.index + n - 1 < 0 then -1 else w.index + n - 1 }, L.2, none) := by
          show w.getRecords (.next n) F W act = _
          unfold WS.getRecords
          simp only [hrec, Bool.false_eq_true, if_false, hL]
          rw [reset_ok (by rw [hlen', hc]; omega)]
        rw [hr, h1, h4]
        refine ⟨rfl, ⟨_, rfl⟩, ?_, fun _ => ?_⟩
        · have hs : scopeErr (.next n) c w.recs.length = false := by simp [scopeErr]; omega
          rw [hs]; rfl
        · simp only [endPos, hc]
          rw [if_neg (by omega : ¬ c = w.recs.length)]
    · have hrec : w.record.isNone = true := by
        simp [WS.record, hc]
        omega
      have hr : r = (w, [], none) := by
        show w.getRecords (.next n) F W act = _
        unfold WS.getRecords
        simp only [hrec, if_true]
      have hvs : vs = [] := by
        simp [vs, processed, scopeRange, show w.recs.length - c = 0 by omega]
      rw [hr, hvs, changeAt_nil]
      refine ⟨rfl, ⟨w.index, rfl⟩, ?_, fun _ => ?_⟩
      · have hs : scopeErr (.next n) c w.recs.length = false := by simp [scopeErr]; omega
        rw [hs]; rfl
      · simp only [endPos, hc]
        rw [if_pos (by omega)]; omega
  | record n =>
    by_cases hin : 1 ≤ n ∧ n ≤ w.recs.length
    · have hnn : n - 1 = (((n - 1).toNat : Nat) : Int) := by omega
      generalize hk : (n - 1).toNat = k at hnn
      have hklt : k < w.recs.length := by omega
      have hg := goto_ok (w := w) (n := k) hklt
      obtain ⟨h1, j, h2, h3, h4⟩ := recordsLoop_spec (cond := fun i => decide (i = n - 1))
        (F := F) (W := W) (act := act) w.recs.length { w with index := (k : Int) } k rfl (by simp)
          (by simp; omega)
      have hrec : ({ w with index := (k : Int) } : WS ρ).record.isNone = false := by
        have : ¬ ((k : Int) < 0) := by omega
        simp [WS.record, hklt, this]
      have hvs : vs = (List.filter (holds F w.recs)
          (List.takeWhile (fun (k : Nat) => decide ((k : Int) = n - 1) && holds W w.recs k)
            (List.range' k (w.recs.length - k)))) := by
        simp only [vs, processed, scopeRange]
        rw [takeWhile_and, takeWhile_single k _ (n - 1) hnn.symm (by omega), if_pos hin, hk]
      rw [← hvs] at h1 h4
      generalize hL : recordsLoop (fun i => decide (i = n - 1)) F W act w.recs.length
        { w with index := (k : Int) } = L at h1 h4
      have hlen' : L.1.recs.length = w.recs.length := by rw [h4]; simp [changeAt_length]
      have hr : r = ({ L.1 with index := if n - 1 < 0 then -1 else n - 1 }, L.2, none) := by
        show w.getRecords (.record n) F W act = _
        unfold WS.getRecords
        have hg' : w.goto (n - 1) = .ok { w with index := (k : Int) } := by rw [hnn]; exact hg
        simp only [hg', hrec, Bool.false_eq_true, if_false, hL]
        rw [reset_ok (by rw [hlen']; omega)]
      rw [hr, h1, h4]
      refine ⟨rfl, ⟨_, rfl⟩, ?_, fun _ => ?_⟩
      · have hs : scopeErr (.record n) c w.recs.length = false := by simp [scopeErr]; omega
        rw [hs]; rfl
      · simp only [endPos]
        rw [if_neg (by omega), if_neg (by omega)]
    · have hvs : vs = [] := by simp [vs, processed, scopeRange, hin]
      by_cases herr : (w.recs.length : Int) < n ∨ n - 1 < -(w.recs.length : Int)
      · have hg : w.goto (n - 1) = .error .indexError := by
          unfold WS.goto; rw [if_neg (by omega)]
        have hr : r = (w, [], some .indexError) := by
          show w.getRecords (.record n) F W act = _
          unfold WS.getRecords
          simp only [hg]
        rw [hr, hvs, changeAt_nil]
        refine ⟨rfl, ⟨w.index, rfl⟩, ?_, fun h => by simp at h⟩
        rw [if_pos (by simp [scopeErr]; omega)]
      · have hg : w.goto (n - 1) = .ok { w with index := n - 1 + w.recs.length } := by
          unfold WS.goto; rw [if_pos (by omega), if_pos (by omega)]
        generalize hw1 : ({ w with index := n - 1 + w.recs.length } : WS ρ) = w1 at hg
        have hidx : w1.index = n - 1 + w.recs.length := by subst hw1; rfl
        have hrec : w1.record.isNone = false := by
          subst hw1
          have h1 : ¬ (n - 1 + (w.recs.length : Int) < 0) := by omega
          have h2 : (n - 1 + (w.recs.length : Int)).toNat < w.recs.length := by omega
          simp [WS.record, h1, h2]
        have hloop : recordsLoop (fun i => decide (i = n - 1)) F W act w1.recs.length w1 = (w1, []) := by
          have hl : w1.recs.length = w.recs.length := by subst hw1; rfl
          rw [hl]
          obtain ⟨m, hm⟩ : ∃ m, w.recs.length = m + 1 := ⟨w.recs.length - 1, by omega⟩
          rw [hm]
          cases hrr : w1.record with
          | none => simp [recordsLoop, hrr]
          | some x =>
            have : ¬ (w1.index = n - 1) := by rw [hidx]; omega
            simp [recordsLoop, hrr, this]
        have hl : w1.recs.length = w.recs.length := by subst hw1; rfl
        have hr : r = ({ w1 with index := if n - 1 < 0 then -1 else n - 1 }, [], none) := by
          show w.getRecords (.record n) F W act = _
          unfold WS.getRecords
          simp only [hg, hrec, Bool.false_eq_true, if_false, hloop]
          rw [reset_ok (by rw [hl]; omega)]
        rw [hr, hvs, changeAt_nil]
        refine ⟨rfl, ⟨if n - 1 < 0 then -1 else n - 1, by subst hw1; rfl⟩, ?_, fun _ => ?_⟩
        · have hs : scopeErr (.record n) c w.recs.length = false := by simp [scopeErr]; omega
          rw [hs]; rfl
        · simp only [endPos]
          rw [if_pos (by omega), if_pos (by omega)]

end Model.Database
