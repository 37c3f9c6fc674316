import Verif.Model.Scatter
import Verif.Props.Scan
/-!
# SCATTER and GATHER (C106)
-/
namespace Props.ScatterSpec
open Model.Database (Str)
open Model.Scatter (Clauses FieldKind)

/-- A name against a skeleton with `*` and `?`. -/
def fits : List Char → List Char → Bool
  | [], [] => true
  | '*' :: p, [] => fits p []
  | '*' :: p, c :: s => fits p (c :: s) || fits ('*' :: p) s
  | '?' :: p, _ :: s => fits p s
  | q :: p, c :: s => (q == c) && fits p s
  | _, _ => false
termination_by p s => p.length + s.length

/-- The fields that a FIELDS clause chooses. -/
def chosen : Option (FieldKind × List Str) → Str → Bool
  | none, _ => true
  | some (.only, l), f => l.contains f
  | some (.like, l), f => l.any (fits · f)
  | some (.except, l), f => !l.any (fits · f)

/-- The fields that the command is about: memo fields only with MEMO. -/
def keeps (memoField : Str → Bool) (c : Clauses) (f : Str) : Bool :=
  chosen c.fields f && (c.memo || !memoField f)

variable {α : Type}

/-- Field `f` of a record has the value `v`. -/
def HasValue (names : List Str) (r : List α) (f : Str) (v : α) : Prop :=
  ∃ i : Nat, names[i]? = some f ∧ r[i]? = some v

/-- What SCATTER gives for field `f`: its value, or an empty value with BLANK. -/
def Gives (memoField : Str → Bool) (blankOf : Str → α) (names : List Str) (c : Clauses) (r : List α)
    (f : Str) (v : α) : Prop :=
  keeps memoField c f = true ∧ ∃ x, HasValue names r f x ∧ v = if c.blank then blankOf f else x

/-- `r'` is `r` where the fields that `new` has a value for have that value. -/
def Becomes (names : List Str) (new : Nat → Str → Option α) (r r' : List α) : Prop :=
  r'.length = r.length ∧
  ∀ i f x, names[i]? = some f → r[i]? = some x → r'[i]? = some ((new i f).getD x)

/-- The names of the attributes of the class of arrays. -/
def attributes : List Str :=
  ["columns".toList, "offset".toList, "dim1".toList, "data".toList, "alen".toList, "index".toList]

end Props.ScatterSpec

namespace Props.ScatterAux
open Model.Database Model.Scatter Py Props.ScatterSpec Props.DatabaseAux

variable {α : Type}

/-- The clauses that the functions accept: FIELDS without LIKE and EXCEPT, no ADDITIVE. -/
def plain (c : Clauses) : Bool :=
  match c.fields with
  | none => true
  | some (.only, _) => true
  | some _ => false

theorem fieldKeys_plain {c : Clauses} (h : plain c = true) :
    fieldKeys c.fields = [] ∨ fieldKeys c.fields = ["fields".toList] := by
  unfold plain at h
  split at h
  · rename_i h1; rw [h1]; exact .inl rfl
  · rename_i h1; rw [h1]; exact .inr rfl
  · exact absurd h (by simp)

theorem fieldKeys_other {c : Clauses} (h : plain c = false) :
    fieldKeys c.fields = ["type".toList, "fields".toList] := by
  unfold plain at h
  split at h
  · simp at h
  · simp at h
  · rename_i k hk h1
    rw [h1]
    obtain ⟨k, l⟩ := k
    cases k
    · exact absurd rfl (hk l)
    · rfl
    · rfl

theorem scatter_accepts {c : Clauses} :
    accepts scatterParams (scatterKeys c) = (plain c && !(c.name && c.additive)) := by
  cases hp : plain c
  · unfold scatterKeys
    rw [fieldKeys_other hp]
    cases c.memo <;> cases c.blank <;> cases c.name <;> cases c.additive <;> cases c.target <;> decide +kernel
  · rcases fieldKeys_plain hp with h | h <;> unfold scatterKeys <;> rw [h] <;>
    cases c.memo <;> cases c.blank <;> cases c.name <;> cases c.additive <;> cases c.target <;> decide +kernel

theorem gather_accepts {c : Clauses} : accepts gatherParams (gatherKeys c) = plain c := by
  cases hp : plain c
  · unfold gatherKeys
    rw [fieldKeys_other hp]
    cases c.memo <;> cases c.name <;> cases c.target <;> decide +kernel
  · rcases fieldKeys_plain hp with h | h <;> unfold gatherKeys <;> rw [h] <;>
    cases c.memo <;> cases c.name <;> cases c.target <;> decide +kernel

theorem gather_val {c : Clauses} (hp : plain c = true) : (gatherKeys c).contains "val".toList = (c.name || c.target) := by
  rcases fieldKeys_plain hp with h | h <;> unfold gatherKeys <;> rw [h] <;>
    cases c.memo <;> cases c.name <;> cases c.target <;> decide +kernel

theorem nodup_index {names : List Str} (hn : names.Nodup) {i j : Nat} {f : Str}
    (hi : names[i]? = some f) (hj : names[j]? = some f) : i = j := by
  induction names generalizing i j with
  | nil => simp at hi
  | cons g names ih =>
    rw [List.nodup_cons] at hn
    cases i with
    | zero =>
      cases j with
      | zero => rfl
      | succ j =>
        rw [List.getElem?_cons_succ] at hj
        rw [List.getElem?_cons_zero] at hi
        exact absurd (Option.some.inj hi ▸ List.mem_of_getElem? hj) hn.1
    | succ i =>
      cases j with
      | zero =>
        rw [List.getElem?_cons_succ] at hi
        rw [List.getElem?_cons_zero] at hj
        exact absurd (Option.some.inj hj ▸ List.mem_of_getElem? hi) hn.1
      | succ j =>
        rw [List.getElem?_cons_succ] at hi hj
        rw [ih hn.2 hi hj]

/-- Looking up in the pairs of names and values. -/
theorem get_zip {names : List Str} (hn : names.Nodup) {r : List α} {f : Str} {v : α} :
    Dict.get (names.zip r) f = some v ↔ HasValue names r f v := by
  induction names generalizing r with
  | nil => simp [HasValue]
  | cons g names ih =>
    cases r with
    | nil => simp [HasValue]
    | cons x r =>
      rw [List.zip_cons_cons, Dict.get]
      rw [List.nodup_cons] at hn
      by_cases hg : g = f
      · subst hg
        rw [if_pos rfl]
        constructor
        · intro h; exact ⟨0, rfl, by simpa using h⟩
        · rintro ⟨i, hi, hv⟩
          cases i with
          | zero => simpa using hv
          | succ i =>
            rw [List.getElem?_cons_succ] at hi
            exact absurd (List.mem_of_getElem? hi) hn.1
      · rw [if_neg hg, ih hn.2]
        constructor
        · rintro ⟨i, hi, hv⟩; exact ⟨i + 1, hi, hv⟩
        · rintro ⟨i, hi, hv⟩
          cases i with
          | zero => simp at hi; exact absurd hi hg
          | succ i => exact ⟨i, hi, hv⟩

theorem holds_det {names : List Str} (hn : names.Nodup) {r : List α} {f : Str} {v v' : α}
    (h : HasValue names r f v) (h' : HasValue names r f v') : v = v' := by
  have h1 := (get_zip hn).mpr h
  rw [(get_zip hn).mpr h'] at h1
  exact (Option.some.inj h1).symm

theorem holds_of_mem {names : List Str} {r : List α} (hl : r.length = names.length) {f : Str}
    (h : f ∈ names) : ∃ v, HasValue names r f v := by
  obtain ⟨i, hi, hf⟩ := List.getElem_of_mem h
  exact ⟨r[i]'(by omega), i, by simp [hi, hf], by simp [hl, hi]⟩

/-- The pairs found by `hasattr` and `getattr`. -/
theorem get_filterMap {names : List Str} {g : Str → Option α} {f : Str} (h : f ∈ names) :
    Dict.get (names.filterMap fun f => (g f).map fun v => (f, v)) f = g f := by
  induction names with
  | nil => simp at h
  | cons k names ih =>
    cases hk : g k with
    | none =>
      rw [List.filterMap_cons_none (by rw [hk]; rfl)]
      by_cases hf : f ∈ names
      · exact ih hf
      · have : f = k := by simpa [hf] using h
        subst this
        rw [hk]
        clear ih h
        induction names with
        | nil => rfl
        | cons j names ih2 =>
          have hj : j ≠ f := fun e => hf (by simp [e])
          cases hg : g j with
          | none => rw [List.filterMap_cons_none (by rw [hg]; rfl)]; exact ih2 (fun hm => hf (by simp [hm]))
          | some y =>
            rw [List.filterMap_cons_some (by rw [hg]; rfl), Dict.get, if_neg hj]
            exact ih2 (fun hm => hf (by simp [hm]))
    | some x =>
      rw [List.filterMap_cons_some (by rw [hk]; rfl), Dict.get]
      by_cases hkf : k = f
      · rw [if_pos hkf, ← hkf, hk]
      · rw [if_neg hkf]
        exact ih (by simpa [Ne.symm hkf] using h)

theorem filterMap_empty {names : List Str} {g : Str → Option α}
    (h : (names.filterMap fun f => (g f).map fun v => (f, v)).isEmpty = true) {f : Str} (hf : f ∈ names) :
    g f = none := by
  rw [List.isEmpty_iff, List.filterMap_eq_nil_iff] at h
  simpa using h f hf

theorem write_becomes {names : List Str} {r : List α} (hl : r.length = names.length) (u : Dict Str α) :
    Becomes names (fun _ f => u.get f) r (writeFields names r u) := by
  refine ⟨by simp [writeFields, hl], fun i f x hf hx => ?_⟩
  simp [writeFields, List.getElem?_zipWith, hf, hx]

theorem becomes_congr {names : List Str} {new new' : Nat → Str → Option α} {r r' : List α}
    (h : ∀ i f, names[i]? = some f → new i f = new' i f) (hb : Becomes names new r r') :
    Becomes names new' r r' :=
  ⟨hb.1, fun i f x hf hx => by rw [hb.2 i f x hf hx, h i f hf]⟩

theorem becomes_refl {names : List Str} {r : List α} :
    Becomes names (fun _ _ => (none : Option α)) r r :=
  ⟨rfl, fun _ _ _ _ hx => hx⟩

theorem becomes_det {names : List Str} {new : Nat → Str → Option α} {r r1 r2 : List α}
    (hl : r.length = names.length) (h1 : Becomes names new r r1) (h2 : Becomes names new r r2) : r1 = r2 := by
  apply List.ext_getElem?
  intro i
  by_cases hi : i < r.length
  · have hf : names[i]? = some (names[i]'(by omega)) := by simp [← hl, hi]
    have hx : r[i]? = some r[i] := by simp [hi]
    rw [h1.2 i _ _ hf hx, h2.2 i _ _ hf hx]
  · rw [List.getElem?_eq_none (by have := h1.1; omega), List.getElem?_eq_none (by have := h2.1; omega)]

theorem record_pos {w : WS (List α)} {r : List α} (h : w.record = some r) :
    0 ≤ w.index ∧ w.recs[w.index.toNat]? = some r := by
  unfold WS.record at h
  split at h
  · simp at h
  · exact ⟨by omega, h⟩

theorem set_same {w : WS (List α)} {r : List α} (h : w.record = some r) :
    ({ w with recs := w.recs.set w.index.toNat r } : WS (List α)) = w := by
  have h1 := (record_pos h).2
  obtain ⟨hl, he⟩ := List.getElem?_eq_some_iff.mp h1
  cases w
  simp only at h1 hl he ⊢
  rw [← he, List.set_getElem_self]

theorem area_same {db : DB (List α)} {a : Nat} {w : WS (List α)} (h : db.areas[a]? = some (some w)) :
    ({ db with areas := db.areas.set a (some w) } : DB (List α)) = db := by
  obtain ⟨hl, he⟩ := List.getElem?_eq_some_iff.mp h
  cases db
  simp only at h hl he ⊢
  rw [← he, List.set_getElem_self]

/-- The database after the current record of the current table has become `r'`. -/
def changed (db : DB (List α)) (a : Nat) (w : WS (List α)) (r' : List α) : DB (List α) :=
  { db with areas := db.areas.set a (some { w with recs := w.recs.set w.index.toNat r' }) }

theorem changed_same {db : DB (List α)} {a : Nat} {w : WS (List α)} {r : List α}
    (h : At db .none a w) (hr : w.record = some r) : changed db a w r = db := by
  unfold changed
  rw [set_same hr]
  exact area_same h.2

theorem changed_inj {db : DB (List α)} {a : Nat} {w : WS (List α)} {r r1 r2 : List α}
    (h : At db .none a w) (hr : w.record = some r) (he : changed db a w r1 = changed db a w r2) : r1 = r2 := by
  have h1 : a < db.areas.length := lt_of_at h
  have h2 := (record_pos hr).2
  obtain ⟨hl, _⟩ := List.getElem?_eq_some_iff.mp h2
  have h3 : (changed db a w r1).areas[a]? = (changed db a w r2).areas[a]? := by rw [he]
  simp only [changed, List.getElem?_set, h1, if_true, Option.some.injEq] at h3
  have h4 : (w.recs.set w.index.toNat r1)[w.index.toNat]? = (w.recs.set w.index.toNat r2)[w.index.toNat]? := by
    have := congrArg WS.recs h3
    simp only at this
    rw [this]
  simpa [List.getElem?_set, hl] using h4

theorem gather_at {db : DB (List α)} {a : Nat} {w : WS (List α)} (h : At db .none a w)
    (attr : Str → α) (names : List Str) {c : Clauses} (hp : plain c = true) (val : Source α) :
    gather attr names db c val =
      ({ db with
          areas := db.areas.set a (some (updateFrom attr names (if c.name || c.target then val else .none) w)) },
        none) := by
  unfold gather
  rw [gather_accepts, hp, if_pos rfl, onTable_at h, gather_val hp]

theorem update_object {names : List Str} {w : WS (List α)} {r : List α} (hr : w.record = some r)
    (hl : r.length = names.length) (attr : Str → α) (props : Dict Str α) :
    ∃ r', updateFrom attr names (.object props) w = { w with recs := w.recs.set w.index.toNat r' } ∧
      Becomes names (fun _ f => props.get f) r r' := by
  unfold updateFrom
  rw [hr]
  simp only [updates]
  split
  · rename_i he
    split at he
    · rename_i hempty
      refine ⟨r, (set_same hr).symm, becomes_congr (fun i f hf => ?_) becomes_refl⟩
      have := filterMap_empty hempty (List.mem_of_getElem? hf)
      simpa [getattr] using this.symm
    · simp at he
  · rename_i u he
    split at he
    · simp at he
    · refine ⟨_, rfl, becomes_congr (fun i f hf => ?_) (write_becomes hl u)⟩
      rw [← Option.some.inj he, get_filterMap (List.mem_of_getElem? hf)]
      rfl

theorem update_array {names : List Str} (hn : names.Nodup) {w : WS (List α)} {r : List α}
    (hr : w.record = some r) (hl : r.length = names.length) (attr : Str → α)
    (hattr : ∀ f, f ∈ names → arrayAttrs.contains f = false) (els : List α) :
    ∃ r', updateFrom attr names (.array els) w = { w with recs := w.recs.set w.index.toNat r' } ∧
      Becomes names (fun i _ => els[i]?) r r' := by
  have hempty : (names.filterMap fun f => (getattr attr (.array els) f).map fun v => (f, v)) = [] := by
    rw [List.filterMap_eq_nil_iff]
    intro f hf
    simp only [getattr, hattr f hf]
    rfl
  unfold updateFrom
  rw [hr]
  simp only [updates, hempty, List.isEmpty_nil, if_true]
  refine ⟨_, rfl, becomes_congr (fun i f hf => ?_) (write_becomes hl _)⟩
  apply Option.ext
  intro v
  rw [get_zip hn]
  constructor
  · rintro ⟨j, hj, hv⟩
    have hij : i = j := by
      exact nodup_index hn hf hj
    rw [hij]; exact hv
  · intro hv; exact ⟨i, hf, hv⟩

end Props.ScatterAux

namespace Props
open Model.Database Model.Scatter Py Props.ScatterSpec Props.ScatterAux Props.DatabaseAux

variable {α : Type}

namespace ScatterAux

/-- A table with the fields `a` and `b` and three records, on the second one. -/
def sampleTable : WS (List Int) :=
  { name := "t".toList, file := "t.dbf".toList, recs := [[1, 2], [3, 4], [5, 6]], index := 1,
    locate := none, found := false }
def sampleDb : DB (List Int) := { areas := [none, some sampleTable], current := 1 }
def sampleNames : List Str := ["a".toList, "b".toList]
theorem sample_at : At sampleDb .none 1 sampleTable := ⟨rfl, rfl⟩
def named : Clauses := { name := true }

end ScatterAux

/-- C106 (exact extent): SCATTER NAME gives an object with a property for every field of the current
record.  That is what FoxPro gives exactly when the command is about all the fields (no FIELDS
clause that leaves one out, no memo field or MEMO) and, with BLANK, all of them are empty
already. -/
theorem C106_scatter_iff {db : DB (List α)} {a : Nat} {w : WS (List α)} {r : List α}
    (h : At db .none a w) (hr : w.record = some r) {names : List Str} (hn : names.Nodup)
    (hl : r.length = names.length) (memoField : Str → Bool) (blankOf : Str → α) {c : Clauses}
    (hc : c.name = true) (hp : plain c = true) (hm : c.memvar = false) (ha : c.additive = false) :
    ∃ o, scatter names db c = .assigns (some o) ∧ (∀ f v, o.get f = some v ↔ HasValue names r f v) ∧
      ((∀ f v, o.get f = some v ↔ Gives memoField blankOf names c r f v) ↔
        (∀ f ∈ names, keeps memoField c f = true) ∧
        (c.blank = true → ∀ f v, HasValue names r f v → v = blankOf f)) := by
  refine ⟨names.zip r, ?_, fun f v => get_zip hn, ?_⟩
  · simp [scatter, hm, hc, scatterCall, scatter_accepts, hp, ha, recordCopy, tableInfo_at h, hr]
  · constructor
    · intro hg
      refine ⟨fun f hf => ?_, fun hb f v hv => ?_⟩
      · obtain ⟨v, hv⟩ := holds_of_mem hl hf
        exact ((hg f v).mp ((get_zip hn).mpr hv)).1
      · obtain ⟨_, x, _, hx⟩ := (hg f v).mp ((get_zip hn).mpr hv)
        rw [hb, if_pos rfl] at hx
        exact hx
    · rintro ⟨hk, hb⟩ f v
      rw [get_zip hn]
      constructor
      · intro hv
        obtain ⟨i, hf, _⟩ := id hv
        refine ⟨hk f (List.mem_of_getElem? hf), v, hv, ?_⟩
        split
        · rename_i hbl; exact hb hbl f v hv
        · rfl
      · rintro ⟨_, x, hx, rfl⟩
        split
        · rename_i hbl; rw [← hb hbl f x hx]; exact hx
        · exact hx

example : ∃ o, scatter sampleNames sampleDb { named with fields := some (.only, ["b".toList]) } = .assigns (some o) ∧
    o.get "b".toList = some 4 ∧ o.get "a".toList = some 3 := by
  obtain ⟨o, h1, h2, _⟩ := C106_scatter_iff (c := { named with fields := some (.only, ["b".toList]) })
    sample_at (r := [3, 4]) rfl (names := sampleNames) (by decide) rfl (fun _ => false) (fun _ => 0) rfl rfl rfl rfl
  exact ⟨o, h1, (h2 _ _).mpr ⟨1, rfl, rfl⟩, (h2 _ _).mpr ⟨0, rfl, rfl⟩⟩

/-- C106 (exact extent): GATHER NAME gives the fields for which the object has a property the value
of that property; the other fields, the other records and tables and the record pointer stay.  That
is what FoxPro does exactly when a field that the command is not about has no property or has its
value already. -/
theorem C106_gather_iff {db : DB (List α)} {a : Nat} {w : WS (List α)} {r : List α}
    (h : At db .none a w) (hr : w.record = some r) {names : List Str}
    (hl : r.length = names.length) (memoField : Str → Bool) (attr : Str → α) {c : Clauses}
    (hc : c.name = true) (hp : plain c = true) (props : Dict Str α) :
    ∃ r', gather attr names db c (.object props) = (changed db a w r', none) ∧
      Becomes names (fun _ f => props.get f) r r' ∧
      (Becomes names (fun _ f => if keeps memoField c f then props.get f else none) r r' ↔
        ∀ (i : Nat) f x v, names[i]? = some f → r[i]? = some x → props.get f = some v →
          keeps memoField c f = true ∨ v = x) := by
  obtain ⟨r', h1, h2⟩ := update_object hr hl attr props
  refine ⟨r', ?_, h2, ?_⟩
  · rw [gather_at h attr names hp]
    simp only [hc, Bool.true_or, if_true, h1]
    rfl
  · constructor
    · intro hb i f x v hf hx hv
      cases hk : keeps memoField c f with
      | true => exact .inl rfl
      | false =>
        right
        have e1 := h2.2 i f x hf hx
        rw [hb.2 i f x hf hx] at e1
        simpa [hv, hk, eq_comm] using e1
    · intro hk
      refine ⟨h2.1, fun i f x hf hx => ?_⟩
      rw [h2.2 i f x hf hx]
      cases hv : props.get f with
      | none => simp [hv]
      | some v =>
        rcases hk i f x v hf hx hv with h3 | h3
        · simp [h3]
        · subst h3
          simp only [hv]; split <;> rfl

example : ∃ r', gather (fun _ => 0) sampleNames sampleDb named (.object [("b".toList, 9), ("z".toList, 8)]) =
    (changed sampleDb 1 sampleTable r', none) ∧ r'[0]? = some 3 ∧ r'[1]? = some 9 := by
  obtain ⟨r', h1, h2, _⟩ := C106_gather_iff (c := named) sample_at (r := [3, 4]) rfl (names := sampleNames) rfl
    (fun _ => false) (fun _ => 0) rfl rfl [("b".toList, 9), ("z".toList, 8)]
  exact ⟨r', h1, h2.2 0 "a".toList 3 rfl rfl, h2.2 1 "b".toList 4 rfl rfl⟩

/-- C106: an object made by SCATTER NAME, in which one property is then changed, changes only that
field when it is gathered; without a change GATHER leaves the database as it was. -/
theorem C106_round_trip {db : DB (List α)} {a : Nat} {w : WS (List α)} {r : List α}
    (h : At db .none a w) (hr : w.record = some r) {names : List Str} (hn : names.Nodup)
    (hl : r.length = names.length) (attr : Str → α) {c d : Clauses}
    (hc : c.name = true) (hp : plain c = true) (hm : c.memvar = false) (ha : c.additive = false)
    (hd : d.name = true) (hdp : plain d = true) :
    ∃ o, scatter names db c = .assigns (some o) ∧
      gather attr names db d (.object o) = (db, none) ∧
      ∀ (i : Nat) f v, names[i]? = some f →
        gather attr names db d (.object (o.set f v)) = (changed db a w (r.set i v), none) := by
  obtain ⟨o, h1, h2, _⟩ := C106_scatter_iff h hr hn hl (fun _ => false) (fun _ => r[0]?.getD (attr [])) hc hp hm ha
  refine ⟨o, h1, ?_, fun i f v hf => ?_⟩
  · obtain ⟨r', h3, h4, _⟩ := C106_gather_iff h hr hl (fun _ => false) attr hd hdp o
    have : r' = r := by
      refine becomes_det hl h4 ⟨rfl, fun i f x hf hx => ?_⟩
      show r[i]? = some ((o.get f).getD x)
      rw [(h2 f x).mpr ⟨i, hf, hx⟩]
      exact hx
    rw [h3, this, changed_same h hr]
  · obtain ⟨r', h3, h4, _⟩ := C106_gather_iff h hr hl (fun _ => false) attr hd hdp (o.set f v)
    have : r' = r.set i v := by
      refine becomes_det hl h4 ⟨by simp, fun j g x hg hx => ?_⟩
      show (r.set i v)[j]? = some (((o.set f v).get g).getD x)
      rw [Dict.get_set, List.getElem?_set]
      by_cases hij : i = j
      · subst hij
        rw [hf] at hg
        rw [if_pos rfl, if_pos (Option.some.inj hg).symm]
        obtain ⟨hlt, _⟩ := List.getElem?_eq_some_iff.mp hx
        simp [hlt]
      · have hne : f ≠ g := by
          intro e
          subst e
          exact hij (nodup_index hn hf hg)
        rw [if_neg hij, if_neg (Ne.symm hne), (h2 g x).mpr ⟨j, hg, hx⟩]
        exact hx
    rw [h3, this]

example : ∃ o, scatter sampleNames sampleDb named = .assigns (some o) ∧
    gather (fun _ => 0) sampleNames sampleDb named (.object o) = (sampleDb, none) ∧
    gather (fun _ => 0) sampleNames sampleDb named (.object (o.set "a".toList 7)) =
      (changed sampleDb 1 sampleTable [7, 4], none) := by
  obtain ⟨o, h1, h2, h3⟩ := C106_round_trip (c := named) (d := named) sample_at (r := [3, 4]) rfl
    (names := sampleNames) (by decide) rfl (fun _ => 0) rfl rfl rfl rfl rfl rfl
  exact ⟨o, h1, h2, h3 0 _ 7 rfl⟩

/-- C106 (partial): GATHER FROM an array gives the fields the elements in order, as far as there
are elements.  Missing: FIELDS (`C106_fields_fail`) and tables with a field named like an attribute
of the class of arrays (`C106_array_attribute_fails`). -/
theorem C106_gather_array_partial {db : DB (List α)} {a : Nat} {w : WS (List α)} {r : List α}
    (h : At db .none a w) (hr : w.record = some r) {names : List Str} (hn : names.Nodup)
    (hl : r.length = names.length) (attr : Str → α) {c : Clauses} (hc : c.target = true)
    (hp : plain c = true) (hattr : ∀ f, f ∈ names → attributes.contains f = false) (els : List α) :
    ∃ r', gather attr names db c (.array els) = (changed db a w r', none) ∧
      Becomes names (fun i _ => els[i]?) r r' := by
  obtain ⟨r', h1, h2⟩ := update_array hn hr hl attr hattr els
  refine ⟨r', ?_, h2⟩
  rw [gather_at h attr names hp]
  simp only [hc, Bool.or_true, if_true, h1]
  rfl

example : ∃ r', gather (fun _ => 0) sampleNames sampleDb { target := true } (.array [8]) =
    (changed sampleDb 1 sampleTable r', none) ∧ r'[0]? = some 8 ∧ r'[1]? = some 4 := by
  obtain ⟨r', h1, h2⟩ := C106_gather_array_partial (c := { target := true }) sample_at (r := [3, 4]) rfl
    (names := sampleNames) (by decide) rfl (fun _ => 0) rfl rfl (by decide +kernel) [8]
  exact ⟨r', h1, h2.2 0 "a".toList 3 rfl rfl, h2.2 1 "b".toList 4 rfl rfl⟩

/-- C106: with a field named `data`, `index`, `offset`, ... GATHER FROM an array changes only such
fields, whatever the elements are. -/
theorem C106_array_attribute_fails {db : DB (List α)} {a : Nat} {w : WS (List α)} {r : List α}
    (h : At db .none a w) (hr : w.record = some r) {names : List Str}
    (hl : r.length = names.length) (attr : Str → α) {c : Clauses} (hc : c.target = true)
    (hp : plain c = true) {g : Str} (hg : g ∈ names) (hga : attributes.contains g = true) (els : List α) :
    ∃ r', gather attr names db c (.array els) = (changed db a w r', none) ∧
      Becomes names (fun _ f => if attributes.contains f then some (attr f) else none) r r' := by
  have hne : (names.filterMap fun f => (getattr attr (.array els) f).map fun v => (f, v)).isEmpty = false := by
    cases he : (names.filterMap fun f => (getattr attr (.array els) f).map fun v => (f, v)).isEmpty with
    | false => rfl
    | true =>
      have := filterMap_empty he hg
      have hga : arrayAttrs.contains g = true := hga
      simp only [getattr, hga, if_true] at this
      exact absurd this (by simp)
  refine ⟨writeFields names r (names.filterMap fun f => (getattr attr (.array els) f).map fun v => (f, v)), ?_,
    becomes_congr (fun i f hf => ?_) (write_becomes hl _)⟩
  · rw [gather_at h attr names hp]
    simp only [hc, Bool.or_true, if_true, updateFrom, hr, updates, hne, changed, Bool.false_eq_true, if_false]
  · rw [get_filterMap (List.mem_of_getElem? hf)]
    rfl

example : ∃ r', gather (fun _ => 0) ["index".toList, "b".toList] sampleDb { target := true } (.array [8, 9]) =
    (changed sampleDb 1 sampleTable r', none) ∧ r'[0]? = some 0 ∧ r'[1]? = some 4 := by
  obtain ⟨r', h1, h2⟩ := C106_array_attribute_fails (c := { target := true }) sample_at (r := [3, 4]) rfl
    (names := ["index".toList, "b".toList]) rfl (fun _ => 0) rfl rfl (g := "index".toList) (by simp)
    (by decide +kernel) [8, 9]
  exact ⟨r', h1, h2.2 0 "index".toList 3 rfl rfl, h2.2 1 "b".toList 4 rfl rfl⟩

/-- C106: a FIELDS clause and BLANK change nothing at all. -/
theorem C106_fields_fail (names : List Str) (db : DB (List α)) (attr : Str → α) (c : Clauses)
    (l : List Str) (b : Bool) (val : Source α) :
    scatter names db { c with fields := some (.only, l), blank := b } =
        scatter names db { c with fields := none, blank := false } ∧
      gather attr names db { c with fields := some (.only, l), blank := b } val =
        gather attr names db { c with fields := none, blank := false } val := by
  constructor
  · simp only [scatter, scatterCall, scatter_accepts]; rfl
  · simp only [gather, gather_accepts]; rfl

example : scatter sampleNames sampleDb { named with fields := some (.only, ["b".toList]), blank := true } =
    scatter sampleNames sampleDb named :=
  (C106_fields_fail sampleNames sampleDb (fun _ => 0) named ["b".toList] true .none).1

/-- C106: FIELDS LIKE, FIELDS EXCEPT and ADDITIVE end in a TypeError. -/
theorem C106_like_fails (names : List Str) (db : DB (List α)) (attr : Str → α) (c : Clauses)
    (k : FieldKind) (hk : k ≠ .only) (l : List Str) (ht : c.name || c.target || c.memvar) (val : Source α) :
    scatter names db { c with fields := some (k, l) } = .raises .typeError ∧
    gather attr names db { c with fields := some (k, l) } val = (db, some .typeError) ∧
    (c.name = true → scatter names db { c with additive := true } = .raises .typeError) := by
  have hp : plain { c with fields := some (k, l) } = false := by
    cases k <;> simp_all [plain]
  refine ⟨?_, ?_, fun hn => ?_⟩
  · simp only [scatter, scatterCall, scatter_accepts, hp, Bool.false_and, Bool.false_eq_true, if_false]
    cases hm : c.memvar
    · have : (c.name || c.target) = true := by simpa [hm] using ht
      simp [this]
    · simp
  · simp only [gather, gather_accepts, hp, Bool.false_eq_true, if_false]
  · simp only [scatter, scatterCall, scatter_accepts, hn]
    simp

example : gather (fun _ => 0) sampleNames sampleDb { named with fields := some (.except, ["b*".toList]) }
    (.object [("a".toList, 1)]) = (sampleDb, some .typeError) :=
  (C106_like_fails sampleNames sampleDb (fun _ => 0) named .except (by decide) ["b*".toList] rfl _).2.1

/-- C106: SCATTER TO an array assigns None, SCATTER MEMVAR assigns nothing, and GATHER MEMVAR leaves
the database as it is. -/
theorem C106_memvar_fails {db : DB (List α)} {a : Nat} {w : WS (List α)} {r : List α}
    (h : At db .none a w) (hr : w.record = some r) (names : List Str) (attr : Str → α) {c : Clauses}
    (hp : plain c = true) (hc : c.name = false) (val : Source α) :
    (c.memvar = false → c.target = true → scatter names db c = .assigns none) ∧
    (c.memvar = true → scatter names db c = .nothing) ∧
    (c.memvar = true → c.target = false → gather attr names db c val = (db, none)) := by
  refine ⟨fun hm ht => ?_, fun hm => ?_, fun hm ht => ?_⟩
  · simp [scatter, hm, hc, ht, scatterCall, scatter_accepts, hp, recordCopy, tableInfo_at h, hr]
  · simp [scatter, hm, hc, scatterCall, scatter_accepts, hp, recordCopy, tableInfo_at h, hr]
  · rw [gather_at h attr names hp]
    have : updateFrom attr names (.none : Source α) w = w := by
      unfold updateFrom
      rw [hr]
      have he : (names.filterMap fun f => (getattr attr (.none : Source α) f).map fun v => (f, v)) = [] := by
        rw [List.filterMap_eq_nil_iff]; intro f _; rfl
      simp only [updates, he, List.isEmpty_nil, if_true]
    simp only [hc, ht, Bool.or_self, Bool.false_eq_true, if_false, this, area_same h.2]

example : scatter sampleNames sampleDb { memvar := true } = .nothing ∧
    gather (fun _ => 0) sampleNames sampleDb { memvar := true } .none = (sampleDb, none) :=
  have h := C106_memvar_fails (c := { memvar := true }) sample_at (r := [3, 4]) rfl sampleNames (fun _ => 0) rfl rfl .none
  ⟨h.2.1 rfl, h.2.2 rfl rfl⟩

end Props
