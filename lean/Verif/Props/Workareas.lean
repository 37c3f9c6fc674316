import Verif.Props.Scan
/-!
# Properties of work areas (C21)
-/
namespace Props.WorkareasAux
open Model.Database Py DatabaseAux
open Spec.Database (Areas Res known)

variable {ρ : Type}

/-- A table name without a path or an extension. -/
def Plain (s : Str) : Prop := s ≠ [] ∧ '.' ∉ s ∧ '/' ∉ s

instance (s : Str) : Decidable (Plain s) := by unfold Plain; infer_instance

/-- The commands on work areas. -/
inductive Op where
  | use (name alias : Str)
  | select (name : Str)
  | close (n : Nat)
  | closeAll
  deriving DecidableEq, Repr

def Op.Ok : Op → Prop
  | .use n al => Plain n ∧ (al = [] ∨ Plain al)
  | .select n => Plain n
  | _ => True

/-- The outcome a user sees. -/
def outcome : Option Err → Res
  | none => .done
  | some .inUse => .refused
  | some .notOpen => .notOpen
  | some .indexError => .noArea
  | some _ => .full

def step (load : Str → List ρ) (db : DB ρ) : Op → DB ρ × Res
  | .use n al => let r := useOpen load db n (.num 0) al; (r.1, outcome r.2)
  | .select n => let r := Model.Database.select db (.str n); (r.1, outcome r.2)
  | .close n => let r := useClose db (.num n); (r.1, outcome r.2)
  | .closeAll => (closeTables db, .done)

def specStep (a : Areas) : Op → Areas × Res
  | .use n al => a.open_ (lower n) (lower al)
  | .select n => a.select (lower n)
  | .close n => a.close n
  | .closeAll => (a.closeAll, .done)

def run (load : Str → List ρ) : DB ρ → List Op → DB ρ × List Res
  | db, [] => (db, [])
  | db, o :: os =>
    let r := step load db o
    let t := run load r.1 os
    (t.1, r.2 :: t.2)

def specRun : Areas → List Op → Areas × List Res
  | a, [] => (a, [])
  | a, o :: os =>
    let r := specStep a o
    let t := specRun r.1 os
    (t.1, r.2 :: t.2)

def specInitial : Areas := { tabs := List.replicate 32767 none, cur := 0 }

/-! ### Names -/

theorem toLower_dot {c : Char} (h : c.toLower = '.') : c = '.' := by
  unfold Char.toLower at h
  split at h
  · rename_i hc
    have h1 : 65 ≤ c.val.toNat := hc.1
    have h2 : c.val.toNat ≤ 90 := hc.2
    have h3 := congrArg (fun c => c.val.toNat) h
    simp only [UInt32.toNat_add] at h3
    have e1 : ('a'.val - 'A'.val).toNat = 32 := by decide
    have e2 : ('.' : Char).val.toNat = 46 := by decide
    rw [e1, e2] at h3
    omega
  · exact h

theorem toLower_slash {c : Char} (h : c.toLower = '/') : c = '/' := by
  unfold Char.toLower at h
  split at h
  · rename_i hc
    have h1 : 65 ≤ c.val.toNat := hc.1
    have h2 : c.val.toNat ≤ 90 := hc.2
    have h3 := congrArg (fun c => c.val.toNat) h
    simp only [UInt32.toNat_add] at h3
    have e1 : ('a'.val - 'A'.val).toNat = 32 := by decide
    have e2 : ('/' : Char).val.toNat = 47 := by decide
    rw [e1, e2] at h3
    omega
  · exact h

theorem plain_lower {s : Str} (h : Plain s) : Plain (lower s) := by
  refine ⟨?_, ?_, ?_⟩
  · intro h0; apply h.1; simpa [lower] using h0
  · intro h0
    obtain ⟨c, hc, hl⟩ := List.mem_map.mp h0
    rw [toLower_dot hl] at hc; exact h.2.1 hc
  · intro h0
    obtain ⟨c, hc, hl⟩ := List.mem_map.mp h0
    rw [toLower_slash hl] at hc; exact h.2.2 hc

theorem tableFile_plain {n : Str} (h : Plain n) : tableFile n = n ++ ".dbf".toList := by
  unfold tableFile
  rw [if_neg]
  intro h0
  have : '.' ∈ lower n := by
    have hs := List.isSuffixOf_iff_suffix.mp h0
    exact hs.mem (by decide)
  exact (plain_lower h).2.1 this

theorem takeWhile_all' {α : Type} {p : α → Bool} {l : List α} (h : ∀ a ∈ l, p a = true) :
    l.takeWhile p = l := by
  induction l with
  | nil => rfl
  | cons a t ih =>
    rw [List.takeWhile_cons, h a (by simp), if_pos rfl, ih fun a ha => h a (by simp [ha])]

theorem basename_plain {n : Str} (h : '/' ∉ n) : basename n = n := by
  unfold basename
  rw [takeWhile_all', List.reverse_reverse]
  intro a ha
  simp only [List.mem_reverse] at ha
  simp only [decide_eq_true_eq]
  intro e; subst e; exact h ha

theorem stem_plain {n : Str} (h : Plain n) : stem (n ++ ".dbf".toList) = n := by
  have hs : '/' ∉ n ++ ".dbf".toList := by
    intro h0
    rcases List.mem_append.mp h0 with h1 | h1
    · exact h.2.2 h1
    · revert h1; decide
  have hb : (n ++ ".dbf".toList).reverse.takeWhile (fun x => decide (x ≠ '/'))
      = ['f', 'b', 'd', '.'] ++ n.reverse := by
    rw [takeWhile_all']
    · simp
    · intro a ha
      simp only [List.mem_reverse] at ha
      simp only [decide_eq_true_eq]
      intro e; subst e; exact hs ha
  unfold stem
  simp only [hb]
  have he : (['f', 'b', 'd', '.'] ++ n.reverse).takeWhile (fun x => decide (x ≠ '.')) = ['f', 'b', 'd'] := by
    simp [List.takeWhile_cons]
  rw [he]
  have hd : (['f', 'b', 'd', '.'] ++ n.reverse).drop (['f', 'b', 'd'] : Str).length = '.' :: n.reverse := by simp
  rw [hd]
  simp only
  have hall : (n.reverse.all fun x => decide (x = '.')) = false := by
    rw [Bool.eq_false_iff]
    intro h0
    rw [List.all_eq_true] at h0
    cases n with
    | nil => exact h.1 rfl
    | cons c t =>
      have := h0 c (by simp)
      simp only [decide_eq_true_eq] at this
      exact h.2.1 (by simp [this])
  rw [hall]
  simp

/-- A table opened by a plain name. -/
def GoodW (w : WS ρ) : Prop :=
  ∃ n, Plain n ∧ w.file = n ++ ".dbf".toList ∧ (w.name = [] ∨ Plain w.name)

def absW (w : WS ρ) : Str × Str := (stem (lower w.file), w.name)

theorem lower_append (a b : Str) : lower (a ++ b) = lower a ++ lower b := by simp [lower]

theorem absW_file {w : WS ρ} {n : Str} (hn : Plain n) (hf : w.file = n ++ ".dbf".toList) :
    lower w.file = lower n ++ ".dbf".toList ∧ stem (lower w.file) = lower n := by
  have h1 : lower w.file = lower n ++ ".dbf".toList := by
    rw [hf, lower_append]
    congr 1
  exact ⟨h1, by rw [h1, stem_plain (plain_lower hn)]⟩

theorem isAlias_iff {w : WS ρ} (h : GoodW w) {s : Str} (hs : Plain s) :
    w.isAlias s = known (lower s) (some (absW w)) := by
  obtain ⟨n, hn, hf, _⟩ := h
  obtain ⟨h1, h2⟩ := absW_file hn hf
  have hpl := plain_lower hn
  have hbase : basename (lower n) = lower n := basename_plain hpl.2.2
  have hext : lower s ≠ lower n ++ ".dbf".toList := by
    intro e
    have : '.' ∈ lower s := by rw [e]; simp
    exact (plain_lower hs).2.1 this
  have hbase2 : basename (lower n ++ ".dbf".toList) = lower n ++ ".dbf".toList := by
    apply basename_plain
    intro h0
    rcases List.mem_append.mp h0 with h3 | h3
    · exact hpl.2.2 h3
    · revert h3; decide
  have hst := stem_plain hpl
  unfold WS.isAlias known absW
  simp only [h1, hbase2, hst, hbase]
  by_cases ha : lower s = w.name <;> by_cases hb : lower s = lower n <;> simp_all

/-- The relation between the implementation and the picture of work areas. -/
structure Rel (db : DB ρ) (a : Areas) : Prop where
  tabs : a.tabs = db.areas.map (Option.map absW)
  cur : db.current = a.cur
  len : db.areas.length = 32767
  good : ∀ w, some w ∈ db.areas → GoodW w

theorem place_eq {db : DB ρ} {a : Areas} (h : Rel db a) {s : Str} (hs : Plain s) :
    findAlias db.areas s = a.place (lower s) := by
  unfold findAlias Areas.place
  rw [h.tabs, List.findIdx?_map, findIdx?_eq_map, findIdx?_eq_map (known (lower s) ∘ Option.map absW)]
  congr 1
  apply List.map_congr_left
  intro x hx
  cases x with
  | none => rfl
  | some w => exact isAlias_iff (h.good w hx) hs

theorem getWorkarea_str {db : DB ρ} {s : Str} (hs : s ≠ []) :
    getWorkarea db (.str s) = match findAlias db.areas s with
      | some i => .ok (i : Int)
      | none => .error .notOpen := by
  cases s with
  | nil => exact absurd rfl hs
  | cons c t => rfl

theorem free_eq {db : DB ρ} {a : Areas} (h : Rel db a) :
    db.areas.findIdx? Option.isNone = a.tabs.findIdx? Option.isNone := by
  rw [h.tabs, List.findIdx?_map]
  congr 1
  funext x
  cases x <;> rfl

theorem findIdx?_lt {α : Type} {p : α → Bool} {l : List α} {i : Nat} (h : l.findIdx? p = some i) :
    i < l.length := by
  have := List.findIdx?_eq_some_iff_findIdx_eq.mp h
  exact this.1

theorem good_open {load : Str → List ρ} {n al : Str} (hn : Plain n) (hal : al = [] ∨ Plain al) :
    GoodW (openTable load n al) := by
  refine ⟨n, hn, tableFile_plain hn, ?_⟩
  rcases hal with rfl | h
  · left; rfl
  · right; exact plain_lower h

theorem abs_open {load : Str → List ρ} {n al : Str} (hn : Plain n) :
    absW (openTable load n al) = (lower n, lower al) := by
  have := (absW_file (w := openTable load n al) hn (tableFile_plain hn)).2
  unfold absW
  rw [this]; rfl

theorem step_rel {load : Str → List ρ} {db : DB ρ} {a : Areas} (h : Rel db a) (o : Op) (ho : o.Ok)
    (hc : (specStep a o).2 ≠ .conflict) :
    Rel (step load db o).1 (specStep a o).1 ∧ (step load db o).2 = (specStep a o).2 := by
  cases o with
  | use n al =>
    obtain ⟨hn, hal⟩ := ho
    have hu : used db (.str n) = (a.place (lower n)).isSome := by
      unfold used
      rw [getWorkarea_str hn.1, place_eq h hn]
      cases a.place (lower n) <;> rfl
    simp only [specStep] at hc ⊢
    simp only [step]
    unfold Areas.open_ at hc ⊢
    unfold useOpen
    rw [hu]
    by_cases hp : (a.place (lower n)).isSome = true
    · rw [if_pos hp, if_pos hp]
      exact ⟨h, rfl⟩
    · rw [if_neg hp] at hc
      rw [if_neg hp, if_neg hp]
      by_cases hcf : lower al ≠ [] ∧ (a.place (lower al)).isSome = true
      · rw [if_pos hcf] at hc; exact absurd rfl hc
      · rw [if_neg hcf]
        simp only [if_true]
        rw [free_eq h]
        cases hf : a.tabs.findIdx? Option.isNone with
        | none => exact ⟨h, rfl⟩
        | some i =>
          have hi : i < db.areas.length := by
            have := findIdx?_lt hf
            rw [h.tabs, List.length_map] at this; exact this
          have hset : setIndex db.areas (Int.ofNat i) (some (openTable load n al))
              = .ok (db.areas.set i (some (openTable load n al))) := setIndex_nat _ _ _ hi
          simp only [Option.map_some, hset]
          refine ⟨⟨?_, h.cur, by simp [h.len], ?_⟩, rfl⟩
          · simp only [List.map_set, Option.map_some, abs_open hn, h.tabs]
          · intro w hw
            rcases List.mem_or_eq_of_mem_set hw with h1 | h1
            · exact h.good w h1
            · rw [Option.some.injEq] at h1
              rw [h1]; exact good_open hn hal
  | select n =>
    have hn : Plain n := ho
    simp only [specStep, step]
    unfold Model.Database.select Areas.select
    rw [getWorkarea_str hn.1, place_eq h hn]
    cases a.place (lower n) with
    | none => exact ⟨h, rfl⟩
    | some i => exact ⟨⟨h.tabs, rfl, h.len, h.good⟩, rfl⟩
  | close n =>
    simp only [specStep, step]
    unfold useClose Areas.close
    by_cases hn : n = 0
    · subst hn; exact ⟨h, rfl⟩
    · rw [if_neg (by simp; omega), if_neg hn]
      have hg : getWorkarea db (.num n) = .ok (n : Int) := by
        simp [getWorkarea]; omega
      rw [hg]
      have hlen : a.tabs.length = db.areas.length := by rw [h.tabs, List.length_map]
      have he : ((n : Int) - 1) = ((n - 1 : Nat) : Int) := by omega
      by_cases hle : n ≤ db.areas.length
      · simp only [he, setIndex_nat _ _ _ (show n - 1 < db.areas.length by omega)]
        rw [if_pos (by omega)]
        refine ⟨⟨by simp only [List.map_set, Option.map_none, h.tabs], h.cur, by simp [h.len], ?_⟩, rfl⟩
        intro w hw
        rcases List.mem_or_eq_of_mem_set hw with h1 | h1
        · exact h.good w h1
        · cases h1
      · have herr : setIndex db.areas ((n : Int) - 1) none = .error .indexError := by
          unfold setIndex
          rw [if_neg (by omega), if_neg (by omega)]
        simp only [herr]
        rw [if_neg (by omega)]
        exact ⟨h, rfl⟩
  | closeAll =>
    refine ⟨⟨?_, h.cur, ?_, ?_⟩, rfl⟩
    · have : a.tabs.length = 32767 := by rw [h.tabs, List.length_map, h.len]
      show a.tabs.map (fun _ => none) = (List.replicate 32767 none).map (Option.map absW)
      rw [List.map_const', this, List.map_replicate]
      rfl
    · exact List.length_replicate
    · intro w hw
      have := List.eq_of_mem_replicate hw
      cases this

theorem run_rel {load : Str → List ρ} (os : List Op) : ∀ {db : DB ρ} {a : Areas}, Rel db a →
    (∀ o ∈ os, o.Ok) → Res.conflict ∉ (specRun a os).2 →
    Rel (run load db os).1 (specRun a os).1 ∧ (run load db os).2 = (specRun a os).2 := by
  induction os with
  | nil => intro db a h _ _; exact ⟨h, rfl⟩
  | cons o os ih =>
    intro db a h ho hc
    simp only [specRun, List.mem_cons, not_or] at hc
    obtain ⟨h1, h2⟩ := step_rel (load := load) h o (ho o (by simp)) (fun e => hc.1 e.symm)
    obtain ⟨h3, h4⟩ := ih h1 (fun o ho' => ho o (by simp [ho'])) hc.2
    exact ⟨h3, by simp only [run, specRun, h2, h4]⟩

theorem rel_initial : Rel (initial : DB ρ) specInitial := by
  refine ⟨?_, rfl, List.length_replicate, ?_⟩
  · show List.replicate 32767 none = (List.replicate 32767 none).map (Option.map absW)
    rw [List.map_replicate]
    rfl
  intro w hw
  have := List.eq_of_mem_replicate hw
  cases this

theorem known_some {n : Str} {t : Option (Str × Str)} (h : known n t = true) :
    ∃ f al, t = some (f, al) ∧ (n = f ∨ n = al) := by
  cases t with
  | none => simp [known] at h
  | some p =>
    obtain ⟨f, al⟩ := p
    simp [known] at h
    exact ⟨f, al, rfl, h⟩

theorem place_none {a : Areas} {n : Str} (h : (a.place n).isSome = false) {i : Nat} {t : Option (Str × Str)}
    (ht : a.tabs[i]? = some t) : known n t = false := by
  unfold Areas.place at h
  rw [Option.isSome_eq_false_iff, Option.isNone_iff_eq_none, List.findIdx?_eq_none_iff] at h
  exact h t (List.mem_of_getElem? ht)

theorem distinct_set {a : Areas} (h : a.Distinct) {i : Nat} {t : Option (Str × Str)}
    (hnew : ∀ (j : Nat) tj n, a.tabs[j]? = some tj → n ≠ [] → known n t = true → known n tj = false) :
    Areas.Distinct { a with tabs := a.tabs.set i t } := by
  intro x y tx ty n hx hy hn kx ky
  simp only [List.getElem?_set] at hx hy
  by_cases h1 : i = x
  · by_cases h2 : i = y
    · omega
    · rw [if_pos h1] at hx
      rw [if_neg h2] at hy
      split at hx
      · cases hx
        rw [hnew y ty n hy hn kx] at ky; cases ky
      · cases hx
  · rw [if_neg h1] at hx
    by_cases h2 : i = y
    · rw [if_pos h2] at hy
      split at hy
      · cases hy
        rw [hnew x tx n hx hn ky] at kx; cases kx
      · cases hy
    · rw [if_neg h2] at hy
      exact h x y tx ty n hx hy hn kx ky

theorem distinct_step {a : Areas} (h : a.Distinct) (o : Op) : (specStep a o).1.Distinct := by
  cases o with
  | use n al =>
    simp only [specStep]
    unfold Areas.open_
    split
    · exact h
    · rename_i h1
      split
      · exact h
      · rename_i h2
        split
        · apply distinct_set h
          intro j tj m hj hm hk
          obtain ⟨f, l, he, hf⟩ := known_some hk
          cases he
          rcases hf with rfl | rfl
          · exact place_none (by simpa using h1) hj
          · apply place_none _ hj
            by_cases hp : (a.place (lower al)).isSome = true
            · exact absurd ⟨hm, hp⟩ h2
            · simpa using hp
        · exact h
  | select n =>
    simp only [specStep]
    unfold Areas.select
    split <;> exact h
  | close n =>
    simp only [specStep]
    unfold Areas.close
    split
    · exact h
    · split
      · apply distinct_set h
        intro j tj m hj hm hk
        simp [known] at hk
      · exact h
  | closeAll =>
    intro x y tx ty n hx hy hn kx ky
    simp only [specStep, Areas.closeAll, List.getElem?_map] at hx
    cases hh : a.tabs[x]? with
    | none => rw [hh] at hx; cases hx
    | some t => rw [hh] at hx; cases hx; simp [known] at kx

theorem distinct_run (os : List Op) : ∀ {a : Areas}, a.Distinct → (specRun a os).1.Distinct := by
  induction os with
  | nil => intro a h; exact h
  | cons o os ih => intro a h; exact ih (distinct_step h o)

theorem distinct_initial : specInitial.Distinct := by
  intro x y tx ty n hx hy hn kx ky
  have hm := List.mem_of_getElem? hx
  have := List.eq_of_mem_replicate hm
  subst this
  simp [known] at kx

end Props.WorkareasAux

namespace Props
open Model.Database Py DatabaseAux WorkareasAux
open Spec.Database (Areas Res known)

variable {ρ : Type}

/-- C21: for every history of USE ... IN 0 [ALIAS], SELECT name, USE IN number and CLOSE TABLES with
plain names from the start, in which no alias is given that already belongs to an open table, all
outcomes are those of the picture of numbered places, and afterwards SELECT() gives the place of the
selected work area and SELECT(name) that of the table, 0 when it is not open.  Missing: aliases in
use, see `C21_alias_conflict_fails`; USE without IN and SELECT with a number, see
`C21_plain_use_fails`, `C21_select_number_fails`, `C21_select_zero_fails`. -/
theorem C21_history_partial (load : Str → List ρ) (os : List Op) (hok : ∀ o ∈ os, o.Ok)
    (hc : Res.conflict ∉ (specRun specInitial os).2) :
    let m := run load initial os
    let s := specRun specInitial os
    m.2 = s.2 ∧ selectFunction m.1 (.num 0) = s.1.cur + 1 ∧
      ∀ n, Plain n → selectFunction m.1 (.str n) = s.1.number (lower n) := by
  intro m s
  obtain ⟨h1, h2⟩ := run_rel (load := load) os rel_initial hok hc
  refine ⟨h2, ?_, ?_⟩
  · show (run load initial os).1.current + 1 = _
    rw [h1.cur]
  · intro n hn
    have hp := place_eq h1 hn
    obtain ⟨c, t, rfl⟩ : ∃ c t, n = c :: t := by
      cases n with
      | nil => exact absurd rfl hn.1
      | cons c t => exact ⟨c, t, rfl⟩
    show (match getWorkarea (run load initial os).1 (.str (c :: t)) with
      | .ok i => i + 1
      | .error _ => 0) = _
    rw [getWorkarea_str hn.1, hp]
    unfold Areas.number
    cases (specRun specInitial os).1.place (lower (c :: t)) with
    | none => rfl
    | some i => simp

example : (∀ o ∈ [Op.use "cust".toList [], .use "orders".toList "o".toList, .select "O".toList], o.Ok) ∧
    (specRun specInitial [.use "cust".toList [], .use "orders".toList "o".toList, .select "O".toList]).2 = [.done, .done, .done] := by
  refine ⟨?_, by decide +kernel⟩
  simp only [List.mem_cons, List.not_mem_nil, or_false, forall_eq_or_imp, forall_eq, Op.Ok]
  decide

/-- C21: in the picture a name never belongs to two work areas, so the table found is the only one. -/
theorem C21_unique (os : List Op) : (specRun specInitial os).1.Distinct := distinct_run os distinct_initial

example : (specRun specInitial [.use "cust".toList [], .use "CUST".toList [], .use "orders".toList "o".toList]).2 = [.done, .refused, .done] := by decide +kernel

/-- C21: after such a history SELECT name, when it succeeds, makes a table current that was opened
under that name (file name or alias, in any case), and the place is the one SELECT(name) reports. -/
theorem C21_select_partial (load : Str → List ρ) (os : List Op) (hok : ∀ o ∈ os, o.Ok)
    (hc : Res.conflict ∉ (specRun specInitial os).2) (n : Str) (hn : Plain n) :
    let db := (run load initial os).1
    let r := Model.Database.select db (.str n)
    r.1.areas = db.areas ∧
    ((r.2 = none ∧ ∃ w, tableInfo r.1 .none = .ok w ∧
        (lower w.file = lower n ++ ".dbf".toList ∨ w.name = lower n) ∧
        selectFunction db (.str n) = r.1.current + 1) ∨
     (r.2 = some .notOpen ∧ r.1 = db ∧ ∀ w, some w ∈ db.areas →
        lower w.file ≠ lower n ++ ".dbf".toList ∧ w.name ≠ lower n)) := by
  intro db r
  obtain ⟨h1, _⟩ := run_rel (load := load) os rel_initial hok hc
  have h1 : Rel db _ := h1
  generalize (specRun specInitial os).1 = a at h1
  have hsel : r = match findAlias db.areas n with
      | some i => ({ db with current := (i : Int) }, none)
      | none => (db, some .notOpen) := by
    show Model.Database.select db (.str n) = _
    unfold Model.Database.select
    rw [getWorkarea_str hn.1]
    cases findAlias db.areas n <;> rfl
  have hsf : selectFunction db (.str n) = match findAlias db.areas n with
      | some i => (i : Int) + 1
      | none => 0 := by
    obtain ⟨c, t, rfl⟩ : ∃ c t, n = c :: t := by
      cases n with
      | nil => exact absurd rfl hn.1
      | cons c t => exact ⟨c, t, rfl⟩
    show (match getWorkarea db (.str (c :: t)) with
      | .ok i => i + 1
      | .error _ => 0) = _
    rw [getWorkarea_str hn.1]
    cases findAlias db.areas (c :: t) <;> rfl
  cases hf : findAlias db.areas n with
  | some i =>
    rw [hf] at hsel hsf
    rw [hsel]
    refine ⟨rfl, Or.inl ⟨rfl, ?_⟩⟩
    obtain ⟨hi, hx, _⟩ := List.findIdx?_eq_some_iff_getElem.mp hf
    cases hw : db.areas[i] with
    | none => rw [hw] at hx; simp at hx
    | some w =>
      rw [hw] at hx
      simp only at hx
      have hgood := h1.good w (by rw [← hw]; exact List.getElem_mem hi)
      rw [isAlias_iff hgood hn] at hx
      refine ⟨w, ?_, ?_, hsf⟩
      · apply tableInfo_at (a := i)
        exact ⟨rfl, by rw [List.getElem?_eq_getElem hi, hw]⟩
      · obtain ⟨f, al, he, hor⟩ := known_some hx
        obtain ⟨m, hm, hfile, _⟩ := hgood
        obtain ⟨e1, e2⟩ := absW_file hm hfile
        simp only [absW, Option.some.injEq, Prod.mk.injEq] at he
        rcases hor with h | h
        · left; rw [e1, h, ← he.1, e2]
        · right; rw [h, he.2]
  | none =>
    rw [hf] at hsel
    rw [hsel]
    refine ⟨rfl, Or.inr ⟨rfl, rfl, ?_⟩⟩
    intro w hw
    have hx := List.findIdx?_eq_none_iff.mp hf (some w) hw
    simp only at hx
    have hgood := h1.good w hw
    rw [isAlias_iff hgood hn] at hx
    obtain ⟨m, hm, hfile, _⟩ := hgood
    obtain ⟨e1, e2⟩ := absW_file hm hfile
    have hx1 := of_decide_eq_false (Bool.or_eq_false_iff.mp hx).1
    have hx2 := of_decide_eq_false (Bool.or_eq_false_iff.mp hx).2
    constructor
    · intro e
      rw [e1] at e
      have := List.append_cancel_right e
      exact hx1 (this.symm.trans e2.symm)
    · intro e; exact hx2 e.symm

def exHistory : List Op :=
  [.use "Cust".toList [], .use "orders".toList "o".toList, .select "O".toList, .use "CUST".toList [],
    .close 1, .use "items".toList [], .select "cust".toList]

example : ∀ o ∈ exHistory, o.Ok := by
  unfold exHistory
  simp only [List.mem_cons, List.not_mem_nil, or_false, forall_eq_or_imp, forall_eq, Op.Ok]
  decide

example : (specRun specInitial exHistory).2
    = [.done, .done, .done, .refused, .done, .done, .notOpen] := by decide +kernel

/-- C21: opening a table in a free work area changes that work area only, in every state. -/
theorem C21_open_undisturbed (load : Str → List ρ) (db : DB ρ) (name alias : Str)
    (hok : (useOpen load db name (.num 0) alias).2 = none) :
    let db' := (useOpen load db name (.num 0) alias).1
    ∃ i : Nat, db.areas[i]? = some none ∧ db'.areas = db.areas.set i (some (openTable load name alias)) ∧
      db'.current = db.current ∧ (openTable load name alias).recs = load name := by
  intro db'
  have hdef : useOpen load db name (.num 0) alias = (db', none) := Prod.ext rfl hok
  unfold useOpen at hdef
  split at hdef
  · simp at hdef
  · simp only [if_true] at hdef
    cases hf : db.areas.findIdx? Option.isNone with
    | none => rw [hf] at hdef; simp at hdef
    | some i =>
      rw [hf] at hdef
      obtain ⟨hi, hx, _⟩ := List.findIdx?_eq_some_iff_getElem.mp hf
      have hset : setIndex db.areas (Int.ofNat i) (some (openTable load name alias))
          = .ok (db.areas.set i (some (openTable load name alias))) := setIndex_nat _ _ _ hi
      simp only [Option.map_some, hset, Prod.mk.injEq, and_true] at hdef
      refine ⟨i, ?_, ?_, ?_, rfl⟩
      · rw [List.getElem?_eq_getElem hi]
        cases hw : db.areas[i] with
        | none => rfl
        | some w => rw [hw] at hx; cases hx
      · rw [← hdef]
      · rw [← hdef]

example : (useOpen (fun _ => [1, 2]) { areas := [some (tbl [] 0), none], current := 0 } "a".toList (.num 0) []).2
    = none := by decide +kernel

/-- C21: after a table is opened in a free work area, that work area holds the records of the file
with the first one current; all other work areas are as before. -/
theorem C21_opened (load : Str → List ρ) (db : DB ρ) (name alias : Str)
    (hok : (useOpen load db name (.num 0) alias).2 = none) :
    let db' := (useOpen load db name (.num 0) alias).1
    ∃ (i : Nat) (w : WS ρ), db.areas[i]? = some none ∧ db'.areas[i]? = some (some w) ∧
      (∀ j, j ≠ i → db'.areas[j]? = db.areas[j]?) ∧ (∀ j, j < i → db.areas[j]? ≠ some none) ∧
      w.recs = load name ∧ w.record = (load name).head? ∧ w.found = false := by
  intro db'
  have hdef : useOpen load db name (.num 0) alias = (db', none) := Prod.ext rfl hok
  unfold useOpen at hdef
  split at hdef
  · simp at hdef
  · simp only [if_true] at hdef
    cases hf : db.areas.findIdx? Option.isNone with
    | none => rw [hf] at hdef; simp at hdef
    | some i =>
      rw [hf] at hdef
      obtain ⟨hi, hx, hlow⟩ := List.findIdx?_eq_some_iff_getElem.mp hf
      have hset : setIndex db.areas (Int.ofNat i) (some (openTable load name alias))
          = .ok (db.areas.set i (some (openTable load name alias))) := setIndex_nat _ _ _ hi
      simp only [Option.map_some, hset, Prod.mk.injEq, and_true] at hdef
      refine ⟨i, openTable load name alias, ?_, ?_, ?_, ?_, rfl, ?_, rfl⟩
      · rw [List.getElem?_eq_getElem hi]
        cases hw : db.areas[i] with
        | none => rfl
        | some w => rw [hw] at hx; cases hx
      · rw [← hdef]
        simp [hi]
      · intro j hj
        rw [← hdef]
        simp [List.getElem?_set, Ne.symm hj]
      · intro j hj hn
        have hl := hlow j hj
        rw [List.getElem?_eq_getElem (Nat.lt_trans hj hi)] at hn
        rw [Option.some.inj hn] at hl
        exact hl rfl
      · unfold WS.record openTable
        cases load name <;> simp

example : (useOpen (fun _ => [1, 2]) { areas := [some (tbl [] 0), none], current := 0 } "a".toList (.num 0) []).2
    = none := by decide +kernel

/-- C21 fails: USE name without IN always ends with an exception. -/
theorem C21_plain_use_fails (load : Str → List ρ) (db : DB ρ) (name alias : Str) :
    (useOpen load db name .none alias).2 ≠ none ∧ (useOpen load db name .none alias).1 = db := by
  unfold useOpen
  split <;> simp

/-- C21 fails: an alias that belongs to an open table is accepted.  Then two tables answer to it, and SELECT alias leads to the
one in the lower work area, whichever of the two that is. -/
theorem C21_alias_conflict_fails (load : Str → List ρ) (db : DB ρ) (name t : Str) (ht : t ≠ []) (p : Nat) (w : WS ρ)
    (hat : At db (.str t) p w) (hok : (useOpen load db name (.num 0) t).2 = none) :
    let db' := (useOpen load db name (.num 0) t).1
    ∃ i w', i ≠ p ∧ db.areas[i]? = some none ∧ db'.areas[i]? = some (some w') ∧ w'.recs = load name ∧ db'.areas[p]? = some (some w) ∧
      getWorkarea db' (.str t) = .ok ((min i p : Nat) : Int) := by
  have hwa : ∀ d : DB ρ, getWorkarea d (.str t) = match findAlias d.areas t with | some i => .ok (i : Int) | none => .error .notOpen := by
    intro d
    cases t with
    | nil => exact absurd rfl ht
    | cons c t => rfl
  have hp : findAlias db.areas t = some p := by
    have h1 := hat.1
    rw [hwa] at h1
    cases hf : findAlias db.areas t with
    | none => rw [hf] at h1; cases h1
    | some q =>
      rw [hf] at h1
      simp only [Except.ok.injEq, Int.natCast_inj] at h1
      rw [h1]
  generalize hr : useOpen load db name (.num 0) t = r at hok ⊢
  unfold useOpen at hr
  split at hr
  · rw [← hr] at hok; cases hok
  simp only [if_true] at hr
  cases hf : db.areas.findIdx? Option.isNone with
  | none => rw [hf] at hr; rw [← hr] at hok; cases hok
  | some i =>
    rw [hf] at hr
    obtain ⟨hi, hx, hlow⟩ := List.findIdx?_eq_some_iff_getElem.mp hf
    have hset : setIndex db.areas (Int.ofNat i) (some (openTable load name t))
        = .ok (db.areas.set i (some (openTable load name t))) := setIndex_nat _ _ _ hi
    simp only [Option.map_some, hset] at hr
    have hnone : db.areas[i]? = some none := by
      rw [List.getElem?_eq_getElem hi]
      cases hw : db.areas[i] with
      | none => rfl
      | some w => rw [hw] at hx; cases hx
    have hne : i ≠ p := by
      rintro rfl
      rw [hat.2] at hnone
      cases hnone
    intro db'
    have hdb : db'.areas = db.areas.set i (some (openTable load name t)) := by
      show r.1.areas = _
      rw [← hr]
    refine ⟨i, openTable load name t, hne, hnone, ?_, rfl, ?_, ?_⟩
    · rw [hdb]; simp [hi]
    · rw [hdb, List.getElem?_set_ne hne]; exact hat.2
    · rw [hwa, hdb]
      have : findAlias (db.areas.set i (some (openTable load name t))) t = some (min i p) := by
        unfold findAlias at hp ⊢
        obtain ⟨hpl, hpx, hplow⟩ := List.findIdx?_eq_some_iff_getElem.mp hp
        rw [List.findIdx?_eq_some_iff_getElem]
        have hnew : (openTable load name t).isAlias t = true := by
          simp [WS.isAlias, openTable]
        rcases Nat.lt_or_gt_of_ne hne with hlt | hlt
        · have hm : min i p = i := by omega
          refine ⟨by rw [hm]; simpa using hi, ?_, ?_⟩
          · simp only [hm, List.getElem_set_self]
            exact hnew
          · intro j hj
            have := hplow j (by omega)
            rw [List.getElem_set_ne (by omega)]
            exact this
        · have hm : min i p = p := by omega
          refine ⟨by rw [hm]; simpa using hpl, ?_, ?_⟩
          · simp only [hm]
            rw [List.getElem_set_ne (by omega)]
            exact hpx
          · intro j hj
            have := hplow j (by omega)
            rw [List.getElem_set_ne (by omega)]
            exact this
      rw [this]

/-- The table `t` is in the first work area; the table `a` opened as `t` cannot be selected by that name. -/
example : getWorkarea (useOpen (fun _ => [1]) { areas := [some (tbl [5] 0), none], current := 0 } "a".toList (.num 0) "t".toList).1
    (.str "t".toList) = .ok 0 ∧
    (useOpen (fun _ => [1]) { areas := [some (tbl [5] 0), none], current := 0 } "a".toList (.num 0) "t".toList).2 = none ∧
    At { areas := [some (tbl [5] 0), none], current := 0 } (.str "t".toList) 0 (tbl [5] 0) :=
  ⟨by rfl, by decide +kernel, by rfl, rfl⟩

/-- C21: SELECT(1) is the number of the last work area without a table, and 0 if there is none. -/
theorem C21_free (db : DB ρ) :
    (∀ k : Nat, selectFunction db (.num 1) = k + 1 ↔ db.areas[k]? = some none ∧ ∀ j : Nat, k < j → db.areas[j]? ≠ some none) ∧
    (selectFunction db (.num 1) = 0 ↔ ∀ j : Nat, db.areas[j]? ≠ some none) := by
  have e : selectFunction db (.num 1) = match db.areas.reverse.findIdx? Option.isNone with
      | some i => (db.areas.length : Int) - i
      | none => 0 := rfl
  rw [e]
  generalize db.areas = l
  have last : ∀ i, l.reverse.findIdx? Option.isNone = some i → i < l.length ∧ l[l.length - 1 - i]? = some none ∧
      ∀ j : Nat, l.length - 1 - i < j → l[j]? ≠ some none := by
    intro i h
    obtain ⟨hi, hp, hq⟩ := List.findIdx?_eq_some_iff_getElem.mp h
    have hi' : i < l.length := by simpa using hi
    refine ⟨hi', ?_, ?_⟩
    · rw [List.getElem_reverse] at hp
      rw [List.getElem?_eq_getElem (by omega)]
      exact congrArg some (Option.isNone_iff_eq_none.mp hp)
    · intro j hj hn
      obtain ⟨hj', hjn⟩ := List.getElem?_eq_some_iff.mp hn
      have := hq (l.length - 1 - j) (by omega)
      rw [List.getElem_reverse] at this
      simp only [show l.length - 1 - (l.length - 1 - j) = j by omega, hjn] at this
      exact this rfl
  have nothing : l.reverse.findIdx? Option.isNone = none → ∀ j : Nat, l[j]? ≠ some none := by
    intro h j hn
    rw [List.findIdx?_eq_none_iff] at h
    have := h none (List.mem_reverse.mpr (List.mem_of_getElem? hn))
    simp at this
  cases h : l.reverse.findIdx? Option.isNone with
  | none =>
    have hn := nothing h
    refine ⟨fun k => ⟨fun hk => ?_, fun hk => absurd hk.1 (hn k)⟩, ⟨fun _ => hn, fun _ => rfl⟩⟩
    have : (0 : Int) = k + 1 := hk
    omega
  | some i =>
    obtain ⟨h1, h2, h3⟩ := last i h
    refine ⟨fun k => ⟨fun hk => ?_, fun hk => ?_⟩, ⟨fun hk => ?_, fun hk => absurd h2 (hk _)⟩⟩
    · have hk : (l.length : Int) - i = k + 1 := hk
      rw [show l.length - 1 - i = k by omega] at h2 h3
      exact ⟨h2, h3⟩
    · show (l.length : Int) - i = k + 1
      have a : ¬ l.length - 1 - i < k := fun hlt => h3 k hlt hk.1
      have b : ¬ k < l.length - 1 - i := fun hlt => hk.2 _ hlt h2
      omega
    · have hk : (l.length : Int) - i = 0 := hk
      omega

example : selectFunction ({ areas := [none, some (tbl [5] 0), none, some (tbl [6] 0)], current := 1 } : DB Int) (.num 1) = ((2 : Nat) : Int) + 1 :=
  ((C21_free _).1 2).mpr ⟨rfl, fun j hj => by
    match j, hj with
    | 3, _ => simp
    | j + 4, _ => simp⟩

/-- C21 fails: SELECT with a number selects the work area that SELECT() gives the next number. -/
theorem C21_select_number_fails (db : DB ρ) (n : Int) (hn : n ≠ 0) :
    selectFunction (Model.Database.select db (.num n)).1 (.num 0) = n + 1 := by
  unfold Model.Database.select getWorkarea
  simp only [hn, if_false]
  rfl

/-- C21 fails: SELECT 0 does not select a free work area: it leaves the one selected that was, also where there is a table
in it, and whatever areas are free. -/
theorem C21_select_zero_fails (db : DB ρ) (a : Nat) (w : WS ρ) (hc : db.current = a) (h : db.areas[a]? = some (some w)) :
    let after := (Model.Database.select db (.num 0)).1
    after.current = a ∧ after.areas[a]? = some (some w) ∧ ∀ k : Nat, db.areas[k]? = some none → after.current ≠ k := by
  refine ⟨hc, h, fun k hk e => ?_⟩
  have e : db.current = k := e
  rw [hc, Int.ofNat_inj] at e
  rw [e, hk] at h
  simp at h

example : ({ areas := [some (tbl [5] 0), none], current := 0 } : DB Int).areas[1]? = some none ∧
    (Model.Database.select ({ areas := [some (tbl [5] 0), none], current := 0 } : DB Int) (.num 0)).1.current ≠ 1 :=
  ⟨rfl, (C21_select_zero_fails { areas := [some (tbl [5] 0), none], current := 0 } 0 (tbl [5] 0) rfl rfl).2.2 1 rfl⟩

end Props
