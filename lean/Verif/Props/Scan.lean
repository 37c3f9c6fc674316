import Verif.Props.Database
import Verif.Props.Array
/-!
# Properties of SCAN, LOCATE, APPEND and INSERT (C25, C26, C28, C64)
-/
namespace Props.DatabaseAux
open Model Model.Database Py
open Spec.Database (scopeRange holds processed changeAt Areas Res known)

variable {ρ : Type}

theorem findIdx?_eq_map {α : Type} (p : α → Bool) (l : List α) :
    l.findIdx? p = (l.map p).findIdx? id := by
  rw [List.findIdx?_map]; rfl

theorem findAlias_set {areas : List (Option (WS ρ))} {a : Nat} {w w' : WS ρ} (s : Str)
    (h : areas[a]? = some (some w)) (hn : w'.name = w.name) (hf : w'.file = w.file) :
    findAlias (areas.set a (some w')) s = findAlias areas s := by
  unfold findAlias
  rw [findIdx?_eq_map, findIdx?_eq_map (l := areas)]
  congr 1
  apply List.ext_getElem?
  intro i
  rw [List.getElem?_map, List.getElem?_map, List.getElem?_set]
  by_cases hi : a = i
  · subst hi
    obtain ⟨hl, _⟩ := List.getElem?_eq_some_iff.mp h
    simp only [hl, h, if_true, Option.map_some, WS.isAlias, hn, hf]
  · simp [hi]

/-- Changing the records, the pointer or the marks of a table does not change how it is found. -/
theorem at_set {db : DB ρ} {sel : Sel} {a : Nat} {w w' : WS ρ} (h : At db sel a w)
    (hn : w'.name = w.name) (hf : w'.file = w.file) :
    At { db with areas := db.areas.set a (some w') } sel a w' := by
  refine ⟨?_, by simp [List.getElem?_set, lt_of_at h]⟩
  have h1 := h.1
  cases sel with
  | none => exact h1
  | num n => exact h1
  | str s =>
    cases s with
    | nil => exact h1
    | cons c s =>
      simp only [getWorkarea] at h1 ⊢
      rw [findAlias_set _ h.2 hn hf]
      exact h1

theorem onTable_at {db : DB ρ} {sel : Sel} {a : Nat} {w : WS ρ} (h : At db sel a w)
    (f : WS ρ → WS ρ × Option Err) :
    onTable db sel f = ({ db with areas := db.areas.set a (some (f w).1) }, (f w).2) := by
  unfold onTable
  rw [tableInfo_at h]
  simp only [putInfo_at h]

theorem set_set_area {areas : List (Option (WS ρ))} {a : Nat} {x y : Option (WS ρ)} :
    (areas.set a x).set a y = areas.set a y := List.set_set ..

theorem gotoNum_last {w : WS ρ} (h : 0 < w.recs.length) :
    w.gotoNum (-1) = ({ w with index := (w.recs.length : Int) - 1 }, none) := by
  have hg : w.goto (-1) = .ok { w with index := (w.recs.length : Int) - 1 } := by
    unfold WS.goto
    rw [if_pos (by omega), if_pos (by omega), Int.add_comm]
    rfl
  unfold WS.gotoNum
  rw [if_neg (by omega : ¬ ((-1 : Int) > 0)), hg]

/-! ## LOCATE -/

/-- The workspace after LOCATE found the positions `ms` and `n` of them have been given. -/
def located (w : WS ρ) (ms : List Nat) (n : Nat) : WS ρ :=
  match ms[n]? with
  | some k => { w with index := (k : Int), locate := some (ms.drop (n + 1)), found := true }
  | none => { w with index := w.recs.length, locate := none, found := false }

theorem continue_first {w : WS ρ} {ms : List Nat} (hms : ∀ k ∈ ms, k < w.recs.length) :
    WS.continueLocate { w with locate := some ms } = (located w ms 0, none) := by
  cases ms with
  | nil => simp [WS.continueLocate, located]
  | cons k t =>
    have hk : k < w.recs.length := hms k (by simp)
    simp only [WS.continueLocate, located]
    rw [goto_ok (by exact hk)]
    simp

theorem continue_next {w : WS ρ} {ms : List Nat} {n : Nat} (hms : ∀ k ∈ ms, k < w.recs.length) :
    WS.continueLocate (located w ms n) = (located w ms (n + 1), none) := by
  cases h : ms[n]? with
  | none =>
    have h1 : ms[n + 1]? = none := by
      rw [List.getElem?_eq_none_iff] at h ⊢; omega
    simp [located, h, h1, WS.continueLocate]
  | some k =>
    have hd : ms.drop (n + 1) = ms.drop (n + 1) := rfl
    have hm : ∀ k ∈ ms.drop (n + 1), k < w.recs.length := fun k hk => hms k (List.mem_of_mem_drop hk)
    simp only [located, h]
    cases h1 : ms[n + 1]? with
    | none =>
      have : ms.drop (n + 1) = [] := by
        rw [List.getElem?_eq_none_iff] at h1
        exact List.drop_eq_nil_iff.mpr h1
      simp [WS.continueLocate, this]
    | some k' =>
      obtain ⟨hl, hg⟩ := List.getElem?_eq_some_iff.mp h1
      have hcons : ms.drop (n + 1) = k' :: ms.drop (n + 2) := by
        rw [List.drop_eq_getElem_cons hl, hg]
      rw [hcons] at hm ⊢
      simp only [WS.continueLocate]
      rw [goto_ok (by exact hm k' (by simp))]

/-- LOCATE followed by `n` times CONTINUE. -/
def locateN (db : DB ρ) (sel : Sel) (F W : Nat → ρ → Bool) : Nat → DB ρ × Option Err
  | 0 => locate db sel F W
  | n + 1 =>
    match locateN db sel F W n with
    | (db, some e) => (db, some e)
    | (db, none) => continueLocate db sel

theorem mem_processed {scope : Scope} {F W : Nat → ρ → Bool} {l : List ρ} {c k : Nat}
    (h : k ∈ processed scope F W l c) : k < l.length :=
  mem_scopeRange ((List.takeWhile_sublist _).mem (List.mem_filter.mp h).1)

theorem locateN_at {db : DB ρ} {sel : Sel} {a : Nat} {w : WS ρ} (h : At db sel a w)
    (hp : Positioned w) (F W : Nat → ρ → Bool) (n : Nat) :
    let ms := processed .rest F W w.recs w.index.toNat
    locateN db sel F W n = ({ db with areas := db.areas.set a (some (located w ms n)) }, none) := by
  simp only
  generalize hms : processed .rest F W w.recs w.index.toNat = ms
  have hmem : ∀ k ∈ ms, k < w.recs.length := by
    intro k hk; rw [← hms] at hk; exact mem_processed hk
  induction n with
  | zero =>
    obtain ⟨h1, ⟨j, h2, _⟩, h3, h4, _⟩ := getRecords_at h hp .rest F W (fun _ r => r)
    have hno : ¬ Overrun .rest w := fun h => h.2
    have he := h3.mpr hno
    have hcur := h4 he
    have hw' : ∀ vs, changeAt vs (fun _ (r : ρ) => r) w.recs = w.recs := by
      intro vs; unfold changeAt; apply List.ext_getElem <;> simp
    rw [hw'] at h2
    generalize hw1 : ({ w with recs := w.recs, index := j } : WS ρ) = w1 at h2
    have hdb : (getRecords db sel .rest F W (fun _ r => r)).1
        = { db with areas := db.areas.set a (some w1) } := by
      cases hr : (getRecords db sel .rest F W (fun _ r => r)).1 with
      | mk ar cu =>
        rw [hr] at h2 hcur
        simp only at h2 hcur
        rw [h2, hcur]
    have hgr : getRecords db sel .rest F W (fun _ r => r)
        = ({ db with areas := db.areas.set a (some w1) }, ms, none) := by
      apply Prod.ext
      · exact hdb
      · apply Prod.ext
        · rw [← hms]; exact h1
        · exact he
    have hat : At ({ db with areas := db.areas.set a (some w1) } : DB ρ) sel a w1 :=
      at_set h (by rw [← hw1]) (by rw [← hw1])
    have hat2 := at_set (w' := { w1 with locate := some ms }) hat rfl rfl
    have hcl : WS.continueLocate { w1 with locate := some ms } = (located w ms 0, none) := by
      rw [continue_first (by rw [← hw1]; exact hmem)]
      subst hw1
      rfl
    show locate db sel F W = _
    unfold locate
    rw [hgr]
    simp only
    rw [onTable_at hat]
    simp only [continueLocate]
    rw [onTable_at hat2, hcl]
    simp only [set_set_area]
  | succ n ih =>
    show (match locateN db sel F W n with
      | (db, some e) => (db, some e)
      | (db, none) => continueLocate db sel) = _
    rw [ih]
    simp only [continueLocate]
    have hat := at_set (w' := located w ms n) h (by unfold located; split <;> rfl)
      (by unfold located; split <;> rfl)
    rw [onTable_at hat, continue_next hmem]
    simp only [set_set_area]

/-! ## SCAN -/

/-- The table of the work area, wherever its pointer is. -/
def Holds (db : DB ρ) (a : Nat) (w : WS ρ) (k : Nat) : Prop :=
  db.areas[a]? = some (some { w with index := (k : Int) })

/-- States in which the loop works: `S` says that the work area number leads to the table. -/
structure ScanEnv (a : Nat) (w : WS ρ) (S : DB ρ → Prop) (c : DB ρ → Bool) (p : Nat → Bool)
    (body : DB ρ → DB ρ) : Prop where
  area : ∀ db, S db → getWorkarea db (wsSel a) = .ok (a : Int)
  keep : ∀ db k, S db → Holds db a w k → S (body db) ∧ Holds (body db) a w k
  move : ∀ db x, S db → S { db with areas := db.areas.set a x }
  cond : ∀ db k, S db → Holds db a w k → c db = p k

/-- The two states differ at most in what work area `a` holds. -/
def Same (a : Nat) (d e : DB ρ) : Prop := d.current = e.current ∧ ∀ b, b ≠ a → d.areas[b]? = e.areas[b]?

theorem Same.refl {a : Nat} {d : DB ρ} : Same a d d := ⟨rfl, fun _ _ => rfl⟩

theorem Same.trans {a : Nat} {d e f : DB ρ} (h : Same a d e) (h' : Same a e f) : Same a d f :=
  ⟨h.1.trans h'.1, fun b hb => (h.2 b hb).trans (h'.2 b hb)⟩

theorem Same.set {a : Nat} {d : DB ρ} {x : Option (WS ρ)} : Same a d { d with areas := d.areas.set a x } :=
  ⟨rfl, fun b hb => by simp [List.getElem?_set, Ne.symm hb]⟩

/-- From state `d` the body is run in the given states one after the other, each time on what the
run before left, and `e` is what the last one left; between the runs only work area `a` changes. -/
def Chain (a : Nat) (body : DB ρ → DB ρ) : DB ρ → List (DB ρ) → DB ρ → Prop
  | d, [], e => Same a d e
  | d, x :: t, e => Same a d x ∧ Chain a body (body x) t e

theorem chain_start {a : Nat} {body : DB ρ → DB ρ} {d d' e : DB ρ} {tr : List (DB ρ)} (h : Same a d d')
    (hc : Chain a body d' tr e) : Chain a body d tr e := by
  cases tr with
  | nil => exact h.trans hc
  | cons x t => exact ⟨h.trans hc.1, hc.2⟩

theorem chain_end {a : Nat} {body : DB ρ → DB ρ} {e e' : DB ρ} (h : Same a e e') :
    ∀ {d : DB ρ} {tr : List (DB ρ)}, Chain a body d tr e → Chain a body d tr e'
  | _, [], hc => Same.trans hc h
  | _, _ :: _, hc => ⟨hc.1, chain_end h hc.2⟩

theorem scanLoop_spec {a : Nat} {w : WS ρ} {S : DB ρ → Prop} {c : DB ρ → Bool} {p : Nat → Bool}
    {body : DB ρ → DB ρ} (E : ScanEnv a w S c p body) (fuel : Nat) :
    ∀ (db : DB ρ) (k : Nat), S db → Holds db a w k → k < w.recs.length → w.recs.length - k ≤ fuel →
      let r := scanLoop a c body fuel db
      r.2.2 = none ∧ S r.1 ∧ Holds r.1 a w (w.recs.length - 1) ∧
      ∃ tr, r.2.1 = tr ∧ Chain a body db tr r.1 ∧ tr.length = ((List.range' (k + 1) (w.recs.length - (k + 1))).filter p).length ∧
        ∀ (i : Nat) d q, tr[i]? = some d → ((List.range' (k + 1) (w.recs.length - (k + 1))).filter p)[i]? = some q →
          S d ∧ Holds d a w q := by
  induction fuel with
  | zero => intro db k _ _ hk hf; omega
  | succ fuel ih =>
    intro db k hS hH hk hf
    have hat : At db (wsSel a) a { w with index := (k : Int) } := ⟨E.area db hS, hH⟩
    by_cases hend : w.recs.length ≤ k + 1
    · have he : eof db (wsSel a) = .ok true := by
        unfold eof; rw [tableInfo_at hat]
        simp only [WS.eof]
        rw [decide_eq_true (by omega)]
      have hr : scanLoop a c body (fuel + 1) db = (db, [], none) := by
        simp only [scanLoop, he]
      rw [hr]
      have hz : w.recs.length - (k + 1) = 0 := by omega
      refine ⟨rfl, hS, ?_, [], rfl, Same.refl, by simp [hz], by simp⟩
      rw [show w.recs.length - 1 = k by omega]; exact hH
    · have he : eof db (wsSel a) = .ok false := by
        unfold eof; rw [tableInfo_at hat]
        simp only [WS.eof]
        rw [decide_eq_false (by omega)]
      generalize hdb1 : ({ db with areas := db.areas.set a (some { w with index := ((k + 1 : Nat) : Int) }) } : DB ρ) = db1
      have hsk : skipCmd db (wsSel a) 1 = (db1, none) := by
        unfold skipCmd; rw [onTable_at hat]
        have : WS.skip { w with index := (k : Int) } 1 = ({ w with index := ((k + 1 : Nat) : Int) }, none) := by
          unfold WS.skip
          rw [if_neg (by omega), if_neg (by omega), if_pos (by simp only; omega)]
          rfl
        rw [this, ← hdb1]
      have hS1 : S db1 := by rw [← hdb1]; exact E.move _ _ hS
      have hH1 : Holds db1 a w (k + 1) := by
        rw [← hdb1]; simp [Holds, List.getElem?_set, lt_of_at hat]
      have hsame : Same a db db1 := by rw [← hdb1]; exact Same.set
      have hrange : List.range' (k + 1) (w.recs.length - (k + 1))
          = (k + 1) :: List.range' (k + 2) (w.recs.length - (k + 2)) := by
        rw [show w.recs.length - (k + 1) = (w.recs.length - (k + 2)) + 1 by omega, List.range'_succ]
      have hc := E.cond db1 (k + 1) hS1 hH1
      cases hp : p (k + 1) with
      | true =>
        have hr : scanLoop a c body (fuel + 1) db
            = ((scanLoop a c body fuel (body db1)).1, db1 :: (scanLoop a c body fuel (body db1)).2.1,
              (scanLoop a c body fuel (body db1)).2.2) := by
          simp only [scanLoop, he, hsk, hc, hp, if_true]
        obtain ⟨hSb, hHb⟩ := E.keep db1 (k + 1) hS1 hH1
        obtain ⟨i1, i2, i3, tr, i4, ic, i5, i6⟩ := ih (body db1) (k + 1) hSb hHb (by omega) (by omega)
        rw [hr]
        refine ⟨i1, i2, i3, db1 :: tr, by rw [i4], ⟨hsame, ic⟩, ?_, ?_⟩
        · rw [hrange, List.filter_cons_of_pos hp]; simp [i5]
        · intro i d q hd hq
          rw [hrange, List.filter_cons_of_pos hp] at hq
          cases i with
          | zero =>
            simp only [List.getElem?_cons_zero, Option.some.injEq] at hd hq
            subst hd; subst hq
            exact ⟨hS1, hH1⟩
          | succ i => exact i6 i d q (by simpa using hd) (by simpa using hq)
      | false =>
        have hr : scanLoop a c body (fuel + 1) db = scanLoop a c body fuel db1 := by
          simp only [scanLoop, he, hsk, hc, hp, Bool.false_eq_true, if_false]
        rw [hr]
        obtain ⟨i1, i2, i3, tr, i4, ic, i5, i6⟩ := ih db1 (k + 1) hS1 hH1 (by omega) (by omega)
        refine ⟨i1, i2, i3, tr, i4, chain_start hsame ic, ?_, ?_⟩
        · rw [hrange, List.filter_cons_of_neg (by simp [hp])]; exact i5
        · rw [hrange, List.filter_cons_of_neg (by simp [hp])]; exact i6

/-- The states at which the body starts, against a list of record positions. -/
def Visits (a : Nat) (w : WS ρ) (tr : List (DB ρ)) (ks : List Nat) : Prop :=
  tr.length = ks.length ∧ ∀ (i : Nat) d q, tr[i]? = some d → ks[i]? = some q → Holds d a w q

theorem scanner_spec {a : Nat} {w : WS ρ} {S : DB ρ → Prop} {c : DB ρ → Bool} {p : Nat → Bool}
    {body : DB ρ → DB ρ} (E : ScanEnv a w S c p body) (db : DB ρ) (k : Nat) (fuel : Nat) (scope : Scope)
    (hcur : db.current = a) (hS : S db) (hH : Holds db a w k) (hk : k < w.recs.length)
    (hf : w.recs.length ≤ fuel) :
    let first := if scope = .all then 0 else k
    let r := scanner fuel db scope c body
    r.2.2 = none ∧ Holds r.1 a w k ∧ Chain a body db r.2.1 r.1 ∧
      Visits a w r.2.1 ((List.range' first (w.recs.length - first)).filter p) := by
  intro first r
  have hat : At db (wsSel a) a { w with index := (k : Int) } := ⟨E.area db hS, hH⟩
  have hatc : At db (wsSel db.current) a { w with index := (k : Int) } := by rw [hcur]; exact hat
  have hrec : recno db = (k : Int) + 1 := by
    unfold recno
    rw [show (Sel.num db.current) = wsSel db.current from rfl, tableInfo_at hatc]
  have hfirst : first < w.recs.length := by
    show (if scope = .all then 0 else k) < _
    split <;> omega
  -- the state after the scope ALL has been looked at
  obtain ⟨db0, hg, hsame0, hS0, hH0⟩ : ∃ db0, (if scope = .all then gotoCmd db (wsSel db.current) 0 else (db, none))
      = (db0, none) ∧ Same a db db0 ∧ S db0 ∧ Holds db0 a w first := by
    by_cases hsc : scope = .all
    · refine ⟨{ db with areas := db.areas.set a (some { w with index := ((0 : Nat) : Int) }) }, ?_, Same.set, E.move _ _ hS, ?_⟩
      · rw [if_pos hsc]
        unfold gotoCmd; rw [onTable_at hatc]
        have : WS.gotoNum { w with index := (k : Int) } 0 = ({ w with index := ((0 : Nat) : Int) }, none) := by
          unfold WS.gotoNum
          rw [if_neg (by omega)]
          have := goto_ok (w := { w with index := (k : Int) }) (n := 0) (by simp only; omega)
          simp only [Int.ofNat_zero] at this
          simp only [this]
          rfl
        rw [this]
      · have : first = 0 := if_pos hsc
        rw [this]; simp [Holds, List.getElem?_set, lt_of_at hat]
    · refine ⟨db, by rw [if_neg hsc], Same.refl, hS, ?_⟩
      have : first = k := if_neg hsc
      rw [this]; exact hH
  have hc0 := E.cond db0 first hS0 hH0
  have hne : decide (w.recs ≠ []) = true := by
    apply decide_eq_true; intro h; rw [h] at hk; simp at hk
  have hrange : List.range' first (w.recs.length - first)
      = first :: List.range' (first + 1) (w.recs.length - (first + 1)) := by
    rw [show w.recs.length - first = (w.recs.length - (first + 1)) + 1 by omega, List.range'_succ]
  -- the state in which the loop starts
  obtain ⟨db1, hdb1, hS1, hH1⟩ : ∃ db1, (if (decide (w.recs ≠ []) && c db0) = true then body db0 else db0) = db1 ∧
      S db1 ∧ Holds db1 a w first := by
    refine ⟨_, rfl, ?_⟩
    split
    · exact E.keep db0 first hS0 hH0
    · exact ⟨hS0, hH0⟩
  obtain ⟨i1, i2, i3, tr, i4, ic, i5, i6⟩ := scanLoop_spec E fuel db1 first hS1 hH1 hfirst (by omega)
  have hat3 : At (scanLoop a c body fuel db1).1 (wsSel a) a { w with index := ((w.recs.length - 1 : Nat) : Int) } :=
    ⟨E.area _ i2, i3⟩
  generalize hL : scanLoop a c body fuel db1 = L at i1 i2 i3 i4 ic hat3
  have hgoto : gotoCmd L.1 (wsSel a) ((k : Int) + 1)
      = ({ L.1 with areas := L.1.areas.set a (some { w with index := (k : Int) }) }, none) := by
    unfold gotoCmd; rw [onTable_at hat3]
    have : WS.gotoNum { w with index := ((w.recs.length - 1 : Nat) : Int) } ((k : Int) + 1)
        = ({ w with index := (k : Int) }, none) := by
      unfold WS.gotoNum
      rw [if_pos (by omega), show (k : Int) + 1 - 1 = (k : Int) by omega]
      rw [goto_ok (by exact hk)]
    rw [this]
  have hr : r = ({ L.1 with areas := L.1.areas.set a (some { w with index := (k : Int) }) },
        (if (decide (w.recs ≠ []) && c db0) = true then [db0] else []) ++ tr, none) := by
    show scanner fuel db scope c body = _
    unfold scanner
    simp only [tableInfo_at hatc, hg, hdb1]
    rw [hcur, hL, i1, hrec]
    simp only [hgoto, i4]
  rw [hr]
  have ic := chain_end (Same.set (x := some { w with index := (k : Int) })) ic
  refine ⟨rfl, by simp [Holds, List.getElem?_set, lt_of_at hat3], ?_, ?_⟩
  · rw [hne, Bool.true_and] at hdb1 ⊢
    cases hc : c db0 with
    | true => rw [hc] at hdb1; simp only [if_true] at hdb1 ⊢; rw [← hdb1] at ic; exact ⟨hsame0, ic⟩
    | false =>
      rw [hc] at hdb1
      simp only [Bool.false_eq_true, if_false, List.nil_append] at hdb1 ⊢
      rw [← hdb1] at ic
      exact chain_start hsame0 ic
  rw [hrange, hne, hc0]
  cases hp : p first with
  | true =>
    rw [List.filter_cons_of_pos hp]
    refine ⟨by simp [i5], ?_⟩
    intro i d q hd hq
    cases i with
    | zero =>
      simp at hd hq
      subst hd; subst hq; exact hH0
    | succ i => exact (i6 i d q (by simpa using hd) (by simpa using hq)).2
  | false =>
    rw [List.filter_cons_of_neg (by simp [hp])]
    refine ⟨by simpa using i5, ?_⟩
    intro i d q hd hq
    exact (i6 i d q (by simpa using hd) hq).2

/-! ## Rows of arrays -/

theorem mapM_ok {α β ε : Type} {f : α → Except ε β} {l : List α} {l' : List β} (hlen : l.length = l'.length)
    (h : ∀ (i : Nat) x y, l[i]? = some x → l'[i]? = some y → f x = .ok y) : l.mapM f = .ok l' := by
  induction l generalizing l' with
  | nil =>
    cases l' with
    | nil => rfl
    | cons y t => simp at hlen
  | cons x t ih =>
    cases l' with
    | nil => simp at hlen
    | cons y t' =>
      have h0 := h 0 x y rfl rfl
      have h1 := ih (l' := t') (by simpa using hlen) (fun i x y hx hy => h (i + 1) x y (by simpa using hx) (by simpa using hy))
      rw [List.mapM_cons, h0, h1]
      rfl

theorem rowsOf_2d {α : Type} {v : Arr α} {r c : Nat} (hv : Is2D v r c) (hr : 1 ≤ r) :
    rowsOf v = .ok ((List.range r).map fun i => (v.data.drop (i * c)).take c) := by
  obtain ⟨_, h1, h2⟩ := C09_alen v r c hv hr
  unfold rowsOf
  rw [h1, h2]
  simp only
  apply mapM_ok
  · simp
  · intro i x y hx hy
    simp only [Int.toNat_natCast, List.getElem?_map] at hx hy
    obtain ⟨hi, hxi⟩ := List.getElem?_eq_some_iff.mp hx
    simp at hxi hi
    subst hxi
    simp [hi] at hy
    subst hy
    have hmul : i * c + c ≤ r * c := by
      have : (i + 1) * c ≤ r * c := Nat.mul_le_mul_right c hi
      rw [Nat.add_mul] at this; omega
    apply mapM_ok
    · simp [hv.size]; omega
    · intro j x y hx hy
      obtain ⟨hj, hxj⟩ := List.getElem?_eq_some_iff.mp hx
      simp at hxj hj
      subst hxj
      rw [List.getElem?_take_of_lt hj, List.getElem?_drop] at hy
      obtain ⟨z, hz1, hz2⟩ := C09_read_in_range v r c hv ((i : Int) + 1) ((j : Int) + 1) (by omega) (by omega)
      rw [hz1]
      have : (((i : Int) + 1 - 1) * c + ((j : Int) + 1) - 1).toNat = i * c + j := by
        have e : ((i : Int) + 1 - 1) * c + ((j : Int) + 1) - 1 = ((i * c + j : Nat) : Int) := by
          push_cast; rw [show (i : Int) + 1 - 1 = i by omega]; omega
        rw [e]; rfl
      rw [this, hy] at hz2
      simpa using hz2.symm

theorem rowsOf_1d {α : Type} {v : Arr α} {n : Nat} (hv : Is1D v n) (hn : 1 ≤ n) :
    rowsOf v = .ok (List.replicate n []) := by
  obtain ⟨_, h1, h2⟩ := C09_alen_1d v n hv hn
  unfold rowsOf
  rw [h1, h2]
  simp only
  apply mapM_ok
  · simp
  · intro i x y hx hy
    obtain ⟨hi, hyi⟩ := List.getElem?_eq_some_iff.mp hy
    simp at hyi
    subst hyi
    rfl

end Props.DatabaseAux

namespace Props
open Model Model.Database Py DatabaseAux
open Spec.Database (scopeRange holds processed changeAt defaultScope setField Areas Res known)

variable {ρ : Type}

/-! ## C25: SCAN

`Holds d a w q`: in state `d` work area `a` holds table `w` with the pointer on record `q`. -/

/-- C25 for a body that comes back to the work area of the loop: started on record `k`, the body
runs exactly once for each matching record from `k` on (from the first for ALL), in order, with that
record current and the other work areas as the body left them before (`Chain`); then the pointer is
back on `k`.  Missing: bodies that leave another work area
selected, tables without records and loops started at the end of the file; see `C25_select_fails`,
`C25_empty_fails`, `C25_eof_fails`. -/
theorem C25_scan_partial (db : DB ρ) (a : Nat) (w : WS ρ) (k : Nat) (scope : Scope) (c : DB ρ → Bool)
    (p : Nat → Bool) (body : DB ρ → DB ρ) (fuel : Nat) (hcur : db.current = a) (hH : Holds db a w k)
    (hk : k < w.recs.length) (hfuel : w.recs.length ≤ fuel)
    (hcond : ∀ (d : DB ρ) q, d.current = a → Holds d a w q → c d = p q)
    (hbody : ∀ (d : DB ρ) q, d.current = a → Holds d a w q → (body d).current = a ∧ Holds (body d) a w q) :
    let first := if scope = .all then 0 else k
    let r := scanner fuel db scope c body
    r.2.2 = none ∧ Holds r.1 a w k ∧ Chain a body db r.2.1 r.1 ∧
      Visits a w r.2.1 ((List.range' first (w.recs.length - first)).filter p) := by
  have E : ScanEnv a w (fun d : DB ρ => d.current = a) c p body :=
    { area := by
        intro d hd
        simp only [wsSel, getWorkarea]
        split
        · rw [hd]
        · rfl
      keep := hbody
      move := fun d x h => h
      cond := hcond }
  exact scanner_spec E db k fuel scope hcur hcur hH hk hfuel

/-- C25 for a loop in a work area other than the first and a condition that names its table: then
the body may leave any work area selected. -/
theorem C25_scan_named_partial (db : DB ρ) (a : Nat) (w : WS ρ) (k : Nat) (scope : Scope) (c : DB ρ → Bool)
    (p : Nat → Bool) (body : DB ρ → DB ρ) (fuel : Nat) (hcur : db.current = a) (hH : Holds db a w k)
    (hk : k < w.recs.length) (hfuel : w.recs.length ≤ fuel) (ha : a ≠ 0)
    (hcond : ∀ d q, Holds d a w q → c d = p q)
    (hbody : ∀ d q, Holds d a w q → Holds (body d) a w q) :
    let first := if scope = .all then 0 else k
    let r := scanner fuel db scope c body
    r.2.2 = none ∧ Holds r.1 a w k ∧ Chain a body db r.2.1 r.1 ∧
      Visits a w r.2.1 ((List.range' first (w.recs.length - first)).filter p) := by
  have E : ScanEnv a w (fun _ : DB ρ => True) c p body :=
    { area := by
        intro d hd
        simp only [wsSel, getWorkarea]
        rw [if_neg (by omega)]
      keep := fun d q _ h => ⟨trivial, hbody d q h⟩
      move := fun d x h => h
      cond := fun d q _ h => hcond d q h }
  exact scanner_spec E db k fuel scope hcur trivial hH hk hfuel

/-- Two tables, the first current; `x` is the value of the current record. -/
def twoTables : DB Int := { areas := [some (tbl [1, 2, 3] 0), some (tbl [4, 5, 6, 7] 0)], current := 0 }

def currentValue (d : DB Int) : Int :=
  match tableInfo d .none with
  | .ok w => w.record.getD 0
  | .error _ => 0

example : (scanner 4 twoTables .rest (fun d => decide (currentValue d ≠ 2)) id).2.1.map currentValue = [1, 3] := by
  decide +kernel

/-- C25 fails: a loop in the first work area whose body selects another one goes on in that one: after the body has run, it is
the pointer of the other table that moves, and the condition is looked up there. -/
theorem C25_select_fails (db : DB ρ) (w w' : WS ρ) (scope : Scope) (hsc : scope ≠ .all) (c : DB ρ → Bool) (body : DB ρ → DB ρ) (fuel : Nat)
    (hcur : db.current = 0) (hw : db.areas[0]? = some (some w)) (hne : w.recs ≠ []) (hc : c db = true) (b : Nat)
    (hb : (body db).current = b) (hw' : (body db).areas[b]? = some (some w')) (hi : w'.index + 1 < w'.recs.length) :
    let next : DB ρ := { body db with areas := (body db).areas.set b (some { w' with index := w'.index + 1 }) }
    c next = true → (scanner (fuel + 1) db scope c body).2.1.take 2 = [db, next] := by
  intro next hn
  have hat : At db (wsSel 0) 0 w := ⟨by simp [wsSel, getWorkarea, hcur], hw⟩
  have hat' : At (body db) (wsSel 0) b w' := ⟨by simp [wsSel, getWorkarea, hb], hw'⟩
  have he : eof (body db) (wsSel 0) = .ok false := by
    unfold eof
    rw [tableInfo_at hat']
    simp only [WS.eof, Except.ok.injEq, decide_eq_false_iff_not]
    omega
  have hs : skipCmd (body db) (wsSel 0) 1 = (next, none) := by
    unfold skipCmd
    rw [onTable_at hat']
    simp only [WS.skip]
    rw [if_neg (by omega), if_neg (by omega), if_pos hi]
  have hd : decide (w.recs ≠ []) = true := decide_eq_true hne
  unfold scanner
  rw [hcur]
  simp only [tableInfo_at hat, hsc, if_false, hd, Bool.true_and, hc, if_true, scanLoop, he, hs, hn]
  split <;> rfl

/-- The body goes to the second table, on whose second record it finds itself then. -/
example : (scanner 5 twoTables .rest (fun _ => true) fun d => { d with current := 1 }).2.1.map currentValue = [1, 5, 6, 7] ∧
    ((scanner 5 twoTables .rest (fun _ => true) fun d => { d with current := 1 }).2.1.take 2).map currentValue = [1, 5] := by
  constructor
  · decide +kernel
  · rw [C25_select_fails twoTables (tbl [1, 2, 3] 0) (tbl [4, 5, 6, 7] 0) .rest (by decide) (fun _ => true) (fun d => { d with current := 1 }) 4
      rfl rfl (by decide) rfl 1 rfl rfl (by decide) rfl]
    decide +kernel

theorem DatabaseAux.scanLoop_head {a : Nat} (ha : a ≠ 0) {w : WS ρ} {c : DB ρ → Bool} {body : DB ρ → DB ρ} (fuel : Nat) (d : DB ρ) (i : Nat)
    (h : Holds d a w i) (e : DB ρ) (he : (scanLoop a c body fuel d).2.1.head? = some e) : ∃ j, i < j ∧ Holds e a w j := by
  induction fuel generalizing d i with
  | zero => cases he
  | succ fuel ih =>
    have hat : At d (wsSel a) a { w with index := (i : Int) } := by
      refine ⟨?_, h⟩
      simp only [wsSel, getWorkarea]
      rw [if_neg (by omega)]
    by_cases hl : i + 1 < w.recs.length
    · have he' : eof d (wsSel a) = .ok false := by
        unfold eof
        rw [tableInfo_at hat]
        simp only [WS.eof, Except.ok.injEq, decide_eq_false_iff_not]
        omega
      have hs : skipCmd d (wsSel a) 1 = ({ d with areas := d.areas.set a (some { w with index := ((i + 1 : Nat) : Int) }) }, none) := by
        unfold skipCmd
        rw [onTable_at hat]
        simp only [WS.skip]
        rw [if_neg (by omega), if_neg (by omega), if_pos (by omega)]
        rfl
      have hH : Holds { d with areas := d.areas.set a (some { w with index := ((i + 1 : Nat) : Int) }) } a w (i + 1) := by
        simp [Holds, List.getElem?_set, lt_of_at hat]
      simp only [scanLoop, he', hs] at he
      split at he
      · simp only [List.head?_cons, Option.some.injEq] at he
        subst he
        exact ⟨i + 1, by omega, hH⟩
      · obtain ⟨j, hj, hh⟩ := ih _ (i + 1) hH he
        exact ⟨j, by omega, hh⟩
    · have he' : eof d (wsSel a) = .ok true := by
        unfold eof
        rw [tableInfo_at hat]
        simp only [WS.eof, Except.ok.injEq, decide_eq_true_eq]
        omega
      simp only [scanLoop, he'] at he
      cases he

/-- C25 fails: the condition of a loop is looked up in the work area that the body selected.  If it is false there, the loop goes past
the next record of its own table, whether that one meets it or not. -/
theorem C25_condition_fails (db : DB ρ) (a : Nat) (ha : a ≠ 0) (w : WS ρ) (scope : Scope) (hsc : scope ≠ .all) (c : DB ρ → Bool) (body : DB ρ → DB ρ)
    (fuel : Nat) (hcur : db.current = a) (k : Nat) (hk : k + 1 < w.recs.length) (hH : Holds db a w k) (hc : c db = true)
    (hH' : Holds (body db) a w k)
    (hn : c { body db with areas := (body db).areas.set a (some { w with index := (k : Int) + 1 }) } = false) :
    ∀ d, (scanner (fuel + 1) db scope c body).2.1[1]? = some d → ¬ Holds d a w (k + 1) := by
  have harea : ∀ d : DB ρ, getWorkarea d (wsSel a) = .ok (a : Int) := by
    intro d
    simp only [wsSel, getWorkarea]
    rw [if_neg (by omega)]
  have hat : At db (wsSel a) a { w with index := (k : Int) } := ⟨harea db, hH⟩
  have hat' : At (body db) (wsSel a) a { w with index := (k : Int) } := ⟨harea _, hH'⟩
  have he : eof (body db) (wsSel a) = .ok false := by
    unfold eof
    rw [tableInfo_at hat']
    simp only [WS.eof, Except.ok.injEq, decide_eq_false_iff_not]
    omega
  have hs : skipCmd (body db) (wsSel a) 1 =
      ({ body db with areas := (body db).areas.set a (some { w with index := (k : Int) + 1 }) }, none) := by
    unfold skipCmd
    rw [onTable_at hat']
    simp only [WS.skip]
    rw [if_neg (by omega), if_neg (by omega), if_pos (by omega)]
  have hd : decide (w.recs ≠ []) = true := by
    apply decide_eq_true
    intro h
    rw [h] at hk
    simp at hk
  have hnext : Holds { body db with areas := (body db).areas.set a (some { w with index := (k : Int) + 1 }) } a w (k + 1) := by
    simp [Holds, List.getElem?_set, lt_of_at hat']
  have htr : (scanner (fuel + 1) db scope c body).2.1 =
      db :: (scanLoop a c body fuel { body db with areas := (body db).areas.set a (some { w with index := (k : Int) + 1 }) }).2.1 := by
    unfold scanner
    rw [hcur]
    simp only [tableInfo_at hat, hsc, if_false, hd, Bool.true_and, hc, if_true, scanLoop, he, hs, hn, Bool.false_eq_true]
    split <;> rfl
  intro d hd' hHd
  rw [htr, List.getElem?_cons_succ, ← List.head?_eq_getElem?] at hd'
  obtain ⟨j, hj, hh⟩ := scanLoop_head ha fuel _ (k + 1) hnext d hd'
  unfold Holds at hHd hh
  have heq := hHd.symm.trans hh
  simp only [Option.some.injEq, WS.mk.injEq, Int.natCast_inj] at heq
  omega

/-- In the table of the body the value is 8, and all records but the first are left out. -/
example : (scanner 5 { areas := [some (tbl [8] 0), some (tbl [1, 2, 3] 0)], current := 1 } .rest (fun d => decide (currentValue d < 3))
    fun d => { d with current := 0 }).2.1.map (fun d => (tableAt d 1).map WS.index) = [some 0] := by decide +kernel

/-- C25 fails: SCAN on a table without records raises an exception. -/
theorem C25_empty_fails (db : DB ρ) (a : Nat) (w : WS ρ) (scope : Scope) (c : DB ρ → Bool)
    (body : DB ρ → DB ρ) (fuel : Nat) (hcur : db.current = a) (hw : db.areas[a]? = some (some w))
    (he : w.recs = []) (hi : -1 ≤ w.index) :
    (scanner (fuel + 1) db scope c body).2.2 = some .indexError := by
  have hat : At db (wsSel db.current) a w := by
    refine ⟨?_, hw⟩
    simp only [wsSel, getWorkarea, hcur]
    split <;> rfl
  have hgo : ∀ n, w.gotoNum n = (w, some .indexError) := by
    intro n
    unfold WS.gotoNum WS.goto
    rw [he]
    simp only [List.length_nil]
    rw [if_neg (by omega)]
  have hg : ∀ n, (gotoCmd db (wsSel db.current) n).2 = some .indexError := by
    intro n; unfold gotoCmd; rw [onTable_at hat, hgo]
  by_cases hsc : scope = .all
  · have hgc : gotoCmd db (wsSel db.current) 0 = ((gotoCmd db (wsSel db.current) 0).1, some .indexError) :=
      Prod.ext rfl (hg 0)
    unfold scanner
    simp only [tableInfo_at hat, hsc, if_true]
    rw [hgc]
  · have heof : eof db (wsSel db.current) = .ok true := by
      unfold eof; rw [tableInfo_at hat]
      simp only [WS.eof, he, List.length_nil]
      rw [decide_eq_true (by omega)]
    unfold scanner
    simp only [tableInfo_at hat, hsc, if_false, he, ne_eq, not_true_eq_false, decide_false, Bool.false_and,
      Bool.false_eq_true, scanLoop, heof, hg]

example : (scanner 1 { areas := [some (tbl [] (-1))], current := 0 } .rest (fun _ => true) id).2.2
    = some .indexError := by decide +kernel

/-- C25 fails: a loop started at the end of the file evaluates its condition there, runs its body once on no record if the
condition holds, and ends with an exception in any case. -/
theorem C25_eof_fails (db : DB ρ) (a : Nat) (w : WS ρ) (scope : Scope) (hsc : scope ≠ .all) (c : DB ρ → Bool) (body : DB ρ → DB ρ) (fuel : Nat)
    (hcur : db.current = a) (hH : Holds db a w w.recs.length) (hne : w.recs ≠ [])
    (hbody : (body db).current = a ∧ Holds (body db) a w w.recs.length) :
    (scanner (fuel + 1) db scope c body).2.1 = (if c db then [db] else []) ∧
    (scanner (fuel + 1) db scope c body).2.2 = some .indexError := by
  have harea : ∀ d : DB ρ, d.current = a → getWorkarea d (wsSel a) = .ok (a : Int) := by
    intro d hd
    simp only [wsSel, getWorkarea]
    split
    · rw [hd]
    · rfl
  have hlen : 0 < w.recs.length := by
    cases h : w.recs with
    | nil => exact absurd h hne
    | cons x l => simp
  have hend : ∀ d : DB ρ, d.current = a → Holds d a w w.recs.length →
      scanLoop a c body (fuel + 1) d = (d, [], none) ∧ (gotoCmd d (wsSel a) ((w.recs.length : Int) + 1)).2 = some .indexError := by
    intro d hd hd'
    have hat : At d (wsSel a) a { w with index := (w.recs.length : Int) } := ⟨harea d hd, hd'⟩
    constructor
    · have he : eof d (wsSel a) = .ok true := by
        unfold eof
        rw [tableInfo_at hat]
        simp only [WS.eof, Except.ok.injEq, decide_eq_true_eq]
        omega
      simp only [scanLoop, he]
    · unfold gotoCmd
      rw [onTable_at hat]
      simp only [WS.gotoNum, WS.goto, if_pos (show (w.recs.length : Int) + 1 > 0 by omega)]
      rw [if_neg (by omega)]
  have hat : At db (wsSel a) a { w with index := (w.recs.length : Int) } := ⟨harea db hcur, hH⟩
  have hrec : recno db = (w.recs.length : Int) + 1 := by
    unfold recno
    rw [hcur, show (Sel.num a) = wsSel a from rfl, tableInfo_at hat]
  have hfirst : ∀ b : Bool, (if b = true then body db else db).current = a ∧ Holds (if b = true then body db else db) a w w.recs.length := by
    intro b
    cases b
    · exact ⟨hcur, hH⟩
    · exact hbody
  have h := hfirst (c db)
  obtain ⟨h1, h2⟩ := hend _ h.1 h.2
  have hd : decide (w.recs ≠ []) = true := decide_eq_true hne
  unfold scanner
  rw [hcur]
  simp only [tableInfo_at hat, hsc, if_false, h1, hrec, h2, List.append_nil, hd, Bool.true_and, and_true]

/-- A table of three records, with the pointer behind the last one. -/
example : (scanner 5 { areas := [some (tbl [1, 2, 3] 3)], current := 0 } .rest (fun _ => true) id).2.1.length = 1 := by
  rw [(C25_eof_fails { areas := [some (tbl [1, 2, 3] 3)], current := 0 } 0 (tbl [1, 2, 3] 3) .rest (by decide) (fun _ => true) id 4 rfl rfl
    (by decide) ⟨rfl, rfl⟩).1]
  rfl

/-- C25 fails for the scope NEXT n of SCAN, which is taken for REST: the right records are visited if and only if none
of the records behind those of the scope matches. -/
theorem C25_scope_fails (db : DB ρ) (a : Nat) (w : WS ρ) (k n : Nat) (c : DB ρ → Bool)
    (p : Nat → Bool) (body : DB ρ → DB ρ) (fuel : Nat) (hcur : db.current = a) (hH : Holds db a w k)
    (hk : k < w.recs.length) (hfuel : w.recs.length ≤ fuel)
    (hcond : ∀ (d : DB ρ) q, d.current = a → Holds d a w q → c d = p q)
    (hbody : ∀ (d : DB ρ) q, d.current = a → Holds d a w q → (body d).current = a ∧ Holds (body d) a w q) :
    Visits a w (scanner fuel db (.next n) c body).2.1 ((Spec.Database.scopeRange (.next n) k w.recs.length).filter p) ↔
      ∀ q, k + n ≤ q → q < w.recs.length → p q = false := by
  obtain ⟨-, -, -, hv⟩ := C25_scan_partial db a w k (.next n) c p body fuel hcur hH hk hfuel hcond hbody
  rw [if_neg (by simp)] at hv
  have split : (List.range' k (w.recs.length - k)).filter p =
      ((List.range' k (w.recs.length - k)).take n).filter p ++ ((List.range' k (w.recs.length - k)).drop n).filter p := by
    rw [← List.filter_append, List.take_append_drop]
  have rest : ((List.range' k (w.recs.length - k)).drop n).filter p = [] ↔ ∀ q, k + n ≤ q → q < w.recs.length → p q = false := by
    rw [List.filter_eq_nil_iff, List.drop_range']
    simp only [List.mem_range'_1, Bool.not_eq_true]
    constructor
    · intro h q h1 h2; exact h q ⟨by omega, by omega⟩
    · intro h q ⟨h1, h2⟩; exact h q (by omega) (by omega)
  rw [← rest]
  simp only [Spec.Database.scopeRange, Int.toNat_natCast]
  constructor
  · intro h
    have := h.1.symm.trans hv.1
    rw [split, List.length_append] at this
    exact List.length_eq_zero_iff.mp (by omega)
  · intro h
    rw [split, h, List.append_nil] at hv
    exact hv

/-- Every record is visited by SCAN NEXT 1. -/
example : (scanner 3 twoTables (.next 1) (fun _ => true) id).2.1.map currentValue = [1, 2, 3] := by decide +kernel

/-! ## C26: LOCATE and CONTINUE -/

/-- C26: after LOCATE and any number `n` of CONTINUEs, the pointer is on the `n`-th matching record
(counted from 0) from the starting record on and FOUND() is true; when there is none, the pointer is
at the end of the file and FOUND() is false.  The records, the other work areas and the selected
work area stay as they are, and no exception is raised. -/
theorem C26_locate {db : DB ρ} {sel : Sel} {a : Nat} {w : WS ρ} (h : At db sel a w) (hp : Positioned w)
    (F W : Nat → ρ → Bool) (n : Nat) :
    let ms := processed .rest F W w.recs w.index.toNat
    let r := locateN db sel F W n
    r.2 = none ∧ r.1.current = db.current ∧ (∀ b, b ≠ a → r.1.areas[b]? = db.areas[b]?) ∧
    ∃ w', tableAt r.1 a = some w' ∧ w'.recs = w.recs ∧ found r.1 sel = decide (n < ms.length) ∧
      w'.index = match ms[n]? with
        | some k => (k : Int)
        | none => (w.recs.length : Int) := by
  intro ms r
  have hr : r = _ := locateN_at h hp F W n
  rw [hr]
  have hat := at_set (w' := located w ms n) h (by unfold located; split <;> rfl)
    (by unfold located; split <;> rfl)
  refine ⟨rfl, rfl, ?_, located w ms n, ?_, ?_, ?_, ?_⟩
  · intro b hb; simp [List.getElem?_set, Ne.symm hb]
  · simp [tableAt, List.getElem?_set, lt_of_at h]; rfl
  · unfold located; split <;> rfl
  · show found ({ db with areas := db.areas.set a (some (located w ms n)) } : DB ρ) sel = _
    unfold found
    rw [tableInfo_at hat]
    simp only [located]
    cases hm : ms[n]? with
    | some k =>
      obtain ⟨hl, _⟩ := List.getElem?_eq_some_iff.mp hm
      simp [hl]
    | none =>
      have : ¬ n < ms.length := by rw [List.getElem?_eq_none_iff] at hm; omega
      simp [this]
  · unfold located
    cases hm : ms[n]? <;> rfl

example : (List.range 4).map (fun n =>
    let r := locateN { areas := [some (tbl [4, 1, 5, 2, 6] 1)], current := 0 } .none
      (fun _ x => decide (4 < x)) (fun _ _ => true) n
    (recno r.1, found r.1 .none)) = [(3, true), (5, true), (6, false), (6, false)] := by decide +kernel

/-! ## C28: APPEND and INSERT -/

/-- C28: APPEND BLANK adds one record after the others and makes it current. -/
theorem C28_append {db : DB ρ} {sel : Sel} {a : Nat} {w : WS ρ} (h : At db sel a w) (blank : ρ) :
    let r := append db sel blank
    r.2 = none ∧ r.1.current = db.current ∧ (∀ b, b ≠ a → r.1.areas[b]? = db.areas[b]?) ∧
    ∃ w', tableAt r.1 a = some w' ∧ w'.recs = w.recs ++ [blank] ∧ w'.index = w.recs.length := by
  intro r
  have hat := at_set (w' := { w with recs := w.recs ++ [blank] }) h rfl rfl
  have hr : r = ({ db with areas := db.areas.set a (some { w with recs := w.recs ++ [blank], index := (w.recs.length : Int) }) }, none) := by
    show append db sel blank = _
    unfold append
    rw [onTable_at h]
    simp only [gotoCmd]
    rw [onTable_at hat]
    have : WS.gotoNum { w with recs := w.recs ++ [blank] } (-1)
        = ({ w with recs := w.recs ++ [blank], index := (w.recs.length : Int) }, none) := by
      rw [gotoNum_last (by simp)]
      simp
    rw [this]
    simp only [set_set_area]
  rw [hr]
  refine ⟨rfl, rfl, ?_, _, by simp [tableAt, List.getElem?_set, lt_of_at h]; rfl, rfl, rfl⟩
  intro b hb; simp [List.getElem?_set, Ne.symm hb]

example : At { areas := [none, some (tbl [5] 0)], current := 1 } .none 1 (tbl [5] 0) := ⟨rfl, rfl⟩

/-- C28: INSERT adds its records after the others, in order, and makes the last one current. -/
theorem C28_insert {db : DB ρ} {sel : Sel} {a : Nat} {w : WS ρ} (h : At db sel a w) (rows : List ρ)
    (hrows : rows ≠ []) :
    let r := insertInto db sel rows
    r.2 = none ∧ r.1.current = db.current ∧ (∀ b, b ≠ a → r.1.areas[b]? = db.areas[b]?) ∧
    ∃ w', tableAt r.1 a = some w' ∧ w'.recs = w.recs ++ rows ∧
      w'.index = (w.recs.length + rows.length : Nat) - 1 := by
  intro r
  have hpos : 0 < rows.length := List.length_pos_iff.mpr hrows
  have hat := at_set (w' := { w with recs := w.recs ++ rows }) h rfl rfl
  have hr : r = ({ db with areas := db.areas.set a (some { w with recs := w.recs ++ rows, index := ((w.recs.length + rows.length : Nat) : Int) - 1 }) }, none) := by
    show insertInto db sel rows = _
    unfold insertInto
    rw [onTable_at h]
    simp only [gotoCmd]
    rw [onTable_at hat]
    have : WS.gotoNum { w with recs := w.recs ++ rows } (-1)
        = ({ w with recs := w.recs ++ rows, index := ((w.recs.length + rows.length : Nat) : Int) - 1 }, none) := by
      rw [gotoNum_last (by simp; omega)]
      simp
    rw [this]
    simp only [set_set_area]
  rw [hr]
  refine ⟨rfl, rfl, ?_, _, by simp [tableAt, List.getElem?_set, lt_of_at h]; rfl, rfl, rfl⟩
  intro b hb; simp [List.getElem?_set, Ne.symm hb]

example : (tableAt (insertInto { areas := [none, some (tbl [5] 0)], current := 0 } (.num 1) [8, 9]).1 1).map (fun w => (w.recs, w.index)) =
    some ([5, 8, 9], 2) := by decide +kernel

/-- C28: INSERT FROM ARRAY with a two-dimensional array adds one record for each row, made of the
elements of that row. -/
theorem C28_insert_array {α : Type} {db : DB ρ} {sel : Sel} {a : Nat} {w : WS ρ} (h : At db sel a w)
    (mk : List α → ρ) (v : Arr α) (r c : Nat) (hv : Is2D v r c) (hr : 1 ≤ r) :
    let res := insertArray db sel mk v
    res.2 = none ∧ ∃ w', tableAt res.1 a = some w' ∧
      w'.recs = w.recs ++ (List.range r).map (fun i => mk ((v.data.drop (i * c)).take c)) ∧
      w'.index = (w.recs.length + r : Nat) - 1 := by
  have hrows : rowsOf v = .ok ((List.range r).map fun i => (v.data.drop (i * c)).take c) := rowsOf_2d hv hr
  have := C28_insert h (((List.range r).map fun i => (v.data.drop (i * c)).take c).map mk) (by simp; omega)
  intro res
  have hres : res = insertInto db sel (((List.range r).map fun i => (v.data.drop (i * c)).take c).map mk) := by
    show insertArray db sel mk v = _
    unfold insertArray; rw [hrows]
  rw [hres]
  obtain ⟨h1, _, _, w', h2, h3, h4⟩ := this
  refine ⟨h1, w', h2, ?_, ?_⟩
  · rw [h3]; simp
  · rw [h4]; simp

example : (tableAt (insertArray { areas := [some (tbl [5] 0)], current := 0 } .none (fun l => l.sum) (⟨true, 0, 2, [1, 2, 3, 4]⟩ : Arr Int)).1 0).map WS.recs =
    some [5, 3, 7] := by decide +kernel

/-- C28 fails: INSERT FROM ARRAY with a one-dimensional array of `n` elements adds `n` records
without any of the values. -/
theorem C28_array_1d_fails {α : Type} {db : DB ρ} {sel : Sel} {a : Nat} {w : WS ρ} (h : At db sel a w)
    (mk : List α → ρ) (v : Arr α) (n : Nat) (hv : Is1D v n) (hn : 1 ≤ n) :
    ∃ w', tableAt (insertArray db sel mk v).1 a = some w' ∧ w'.recs = w.recs ++ List.replicate n (mk []) := by
  obtain ⟨_, _, _, w', h2, h3, _⟩ := C28_insert h ((List.replicate n []).map mk) (by simp; omega)
  refine ⟨w', ?_, by rw [h3]; simp⟩
  unfold insertArray
  rw [rowsOf_1d hv hn]
  exact h2

example : Is1D (Arr.init 7 3) 3 ∧ At { areas := [none, some (tbl [5] 0)], current := 1 } .none 1 (tbl [5] 0) :=
  ⟨Is1D_init 7 3, rfl, rfl⟩

/-! ## C64: LOCATE and SCAN -/

/-- C64 fails: LOCATE, without a scope (the default is ALL) and with ALL, does not find the matches before the current record:
if there are no others, FOUND() is false and the pointer is at the end of the file. -/
theorem C64_locate_fails {db : DB ρ} {a : Nat} {w : WS ρ} (h : At db .none a w) (hp : Positioned w) (F : Nat → ρ → Bool)
    (hno : ∀ (k : Nat) x, w.index ≤ k → w.recs[k]? = some x → F k x = false) (scope : Option Scope) :
    found (locateStmt db ⟨scope, some F, none⟩).1 .none = false ∧
    (tableAt (locateStmt db ⟨scope, some F, none⟩).1 a).map WS.index = some (w.recs.length : Int) ∧
    processed (defaultScope false true false) F (fun _ _ => true) w.recs w.index.toNat =
      (List.range w.recs.length).filter (holds F w.recs) := by
  have hms : processed .rest F (fun _ _ => true) w.recs w.index.toNat = [] := by
    rw [List.eq_nil_iff_forall_not_mem]
    intro k hk
    unfold processed at hk
    rw [List.mem_filter] at hk
    obtain ⟨h1, h2⟩ := hk
    have h1 := (List.takeWhile_sublist _).subset h1
    simp only [scopeRange, List.mem_range'_1] at h1
    unfold holds at h2
    cases hx : w.recs[k]? with
    | none => rw [hx] at h2; cases h2
    | some x =>
      rw [hx] at h2
      simp only at h2
      rw [hno k x (by omega) hx] at h2
      cases h2
  obtain ⟨_, _, _, w', h1, _, h3, h4⟩ := C26_locate h hp F (fun _ _ => true) 0
  rw [hms] at h3 h4
  refine ⟨h3, ?_, ?_⟩
  · show (tableAt (locateN db .none F (fun _ _ => true) 0).1 a).map WS.index = _
    rw [h1, Option.map_some, h4]
    rfl
  · show ((scopeRange .all _ _).takeWhile _).filter _ = _
    congr 1
    have hall : ∀ l : List Nat, (∀ i ∈ l, i < w.recs.length) → l.takeWhile (holds (fun _ _ => true) w.recs) = l := by
      intro l
      induction l with
      | nil => intro _; rfl
      | cons i l ih =>
        intro hi
        have hi0 := hi i (by simp)
        rw [List.takeWhile_cons_of_pos (by simp [holds, List.getElem?_eq_getElem hi0]), ih fun i h => hi i (by simp [h])]
    exact hall _ (fun i hi => by simpa [scopeRange] using hi)

/-- The first record is 5, the second one current. -/
example : found (locateStmt { areas := [some (tbl [5, 6, 7] 1)], current := 0 } ⟨some .all, some fun _ x => decide (x = 5), none⟩).1 .none = false :=
  (C64_locate_fails (w := tbl [5, 6, 7] 1) ⟨rfl, rfl⟩ (.inr (by simp [tbl])) _ (by
    intro k x hk hx
    match k, hk with
    | 1, _ => cases hx; decide
    | 2, _ => cases hx; decide
    | k + 3, _ => simp [tbl] at hx
    | 0, hk => exact absurd hk (by decide)) _).1

/-- C64 fails: SCAN without a scope, whose default is ALL, never comes to a record before the one it starts on. -/
theorem C64_scan_fails (db : DB ρ) (a : Nat) (w : WS ρ) (k : Nat) (c : DB ρ → Bool)
    (p : Nat → Bool) (body : DB ρ → DB ρ) (fuel : Nat) (hcur : db.current = a) (hH : Holds db a w k)
    (hk : k < w.recs.length) (hfuel : w.recs.length ≤ fuel)
    (hcond : ∀ (d : DB ρ) q, d.current = a → Holds d a w q → c d = p q)
    (hbody : ∀ (d : DB ρ) q, d.current = a → Holds d a w q → (body d).current = a ∧ Holds (body d) a w q) (q : Nat) (hq : q < k) :
    ∀ d ∈ (scanStmt fuel db none c body).2.1, ¬ Holds d a w q := by
  obtain ⟨_, _, _, hl, hv⟩ := C25_scan_partial db a w k .rest c p body fuel hcur hH hk hfuel hcond hbody
  intro d hd hHd
  obtain ⟨i, hi, rfl⟩ := List.getElem_of_mem hd
  rw [if_neg (by decide)] at hl hv
  have hi' : i < ((List.range' k (w.recs.length - k)).filter p).length := by rw [← hl]; exact hi
  have hm : ((List.range' k (w.recs.length - k)).filter p)[i] ∈ List.range' k (w.recs.length - k) :=
    (List.mem_filter.mp (List.getElem_mem hi')).1
  have hq' := hv i _ _ (List.getElem?_eq_getElem hi) (List.getElem?_eq_getElem hi')
  unfold Holds at hHd hq'
  have heq := hHd.symm.trans hq'
  simp only [Option.some.injEq, WS.mk.injEq, Int.natCast_inj] at heq
  rw [List.mem_range'_1] at hm
  omega

example : (scanStmt 5 { areas := [some (tbl [1, 2, 3] 1)], current := 0 } none (fun _ => true) id).2.1.map currentValue = [2, 3] ∧
    ∀ d ∈ (scanStmt 5 { areas := [some (tbl [1, 2, 3] 1)], current := 0 } none (fun _ => true) id).2.1, ¬ Holds d 0 (tbl [1, 2, 3] 1) 0 :=
  ⟨by decide +kernel, C64_scan_fails { areas := [some (tbl [1, 2, 3] 1)], current := 0 } 0 (tbl [1, 2, 3] 1) 1 _ (fun _ => true) id 5 rfl rfl (by decide) (by decide) (fun _ _ _ _ => rfl)
    (fun _ _ h1 h2 => ⟨h1, h2⟩) 0 (by decide)⟩

end Props
