import Verif.Model.Insert
/-!
# C141: the values of INSERT
-/
namespace Props
open Model.Insert

namespace InsertSpec

variable {α : Type}

/-- Names are the same without regard to case. -/
def same (a b : Str) : Bool := a.map Char.toLower == b.map Char.toLower

/-- The value that a list of names and values gives to a name. -/
def valueOf (f : Str) : List Str → List α → Option α
  | n :: ns, v :: vs => if same n f then some v else valueOf f ns vs
  | _, _ => none

/-- The statement names fields of the table, each once. -/
def Names (fields : List Str) (fs : List Str) : Prop :=
  (∀ n ∈ fs, ∃ f ∈ fields, same n f = true) ∧ fs.Pairwise fun a b => same a b = false

/-- FoxPro: the record that the statement describes, `vars` being the variables that can be seen. -/
def foxRecord (fields : List Str) (vars : Str → Option α) : Source α → List (Option α)
  | .values vs => (List.range fields.length).map fun i => vs[i]?
  | .named fs vs => fields.map fun f => valueOf f fs vs
  | .object p => fields.map p
  | .memvar => fields.map vars

end InsertSpec
open InsertSpec

namespace InsertAux

variable {α : Type}

theorem foldl_put (ps d : List (Str × α)) (h : ((d ++ ps).map Prod.fst).Nodup) :
    ps.foldl (fun d p => put d p.1 p.2) d = d ++ ps := by
  induction ps generalizing d with
  | nil => simp
  | cons p ps ih =>
    have hp : p.1 ∉ d.map Prod.fst := by
      intro hm
      rw [List.map_append, List.nodup_append] at h
      exact h.2.2 _ hm _ (by simp) rfl
    have e : put d p.1 p.2 = d ++ [p] := by simp only [put, if_neg hp]
    rw [List.foldl_cons, e, ih (d ++ [p]) (by simpa using h)]
    simp

theorem dictOf_eq (ps : List (Str × α)) (h : (ps.map Prod.fst).Nodup) : dictOf ps = ps := by
  have := foldl_put ps [] (by simpa using h)
  simpa [dictOf] using this

theorem zip_fst (fs : List Str) (vs : List α) (h : fs.length = vs.length) : (fs.zip vs).map Prod.fst = fs :=
  List.map_fst_zip (by omega)

theorem get_zip (f : Str) (hf : lower f = f) (fs : List Str) (vs : List α) :
    lookup ((fs.map lower).zip vs) f = valueOf f fs vs := by
  induction fs generalizing vs with
  | nil => simp [lookup, valueOf]
  | cons n ns ih =>
    cases vs with
    | nil => simp [lookup, valueOf]
    | cons v vs =>
      have hs : same n f = (lower n == f) := by
        show (lower n == lower f) = _
        rw [hf]
      simp only [List.map_cons, List.zip_cons_cons, lookup, List.find?_cons, valueOf, hs]
      cases hc : (lower n == f) with
      | true => simp
      | false => simpa [lookup] using ih vs

theorem lower_nodup (fs : List Str) (h : fs.Pairwise fun a b => same a b = false) : (fs.map lower).Nodup := by
  rw [List.Nodup, List.pairwise_map]
  exact h.imp fun {a b} hab he => by
    have : same a b = true := by show (lower a == lower b) = true; simp [he]
    rw [hab] at this
    cases this

theorem get_props (fields : List Str) (p : Str → Option α) (f : Str) (hf : f ∈ fields) :
    lookup (fields.filterMap fun f => (p f).map fun v => (f, v)) f = p f := by
  induction fields with
  | nil => cases hf
  | cons g gs ih =>
    cases hp : p g with
    | none =>
      have e : ((g :: gs).filterMap fun f => (p f).map fun v => (f, v)) = gs.filterMap fun f => (p f).map fun v => (f, v) := by
        simp [List.filterMap_cons, hp]
      rw [e]
      by_cases hg : f ∈ gs
      · exact ih hg
      · have hfg : f = g := by simpa [hg] using hf
        subst hfg
        rw [hp]
        have : (gs.filterMap fun f => (p f).map fun v => (f, v)).find? (fun e => e.1 == f) = none := by
          rw [List.find?_eq_none]
          intro e he
          obtain ⟨x, hx, hxe⟩ := List.mem_filterMap.mp he
          cases hpx : p x with
          | none => rw [hpx] at hxe; cases hxe
          | some v =>
            rw [hpx] at hxe
            cases hxe
            simp only [beq_iff_eq]
            intro h
            exact hg (h ▸ hx)
        simp [lookup, this]
    | some v =>
      have e : ((g :: gs).filterMap fun f => (p f).map fun v => (f, v)) = (g, v) :: gs.filterMap fun f => (p f).map fun v => (f, v) := by
        simp [List.filterMap_cons, hp]
      rw [e]
      by_cases hfg : g = f
      · subst hfg
        simp [lookup, hp]
      · have hg : f ∈ gs := by
          rcases List.mem_cons.mp hf with h | h
          · exact absurd h.symm hfg
          · exact h
        have := ih hg
        simp only [lookup, List.find?_cons, show (g == f) = false by simpa using hfg]
        exact this

end InsertAux
open InsertAux

/-- **C141**: with VALUES and no list of fields the values are those of the first fields in their order; more values than fields are an
error. -/
theorem C141_values {α : Type} (fields : List Str) (vars : Str → Option α) (vs : List α) :
    run fields (.values vs) = if vs.length ≤ fields.length then some (foxRecord fields vars (.values vs)) else none := by
  show (if fields.length < vs.length then none else some ((List.range fields.length).map fun i => vs[i]?)) = _
  by_cases h : vs.length ≤ fields.length
  · rw [if_neg (by omega), if_pos h]
    rfl
  · rw [if_pos (by omega), if_neg h]

example : run ["a".toList, "b".toList] (.values [7, 8]) = some [some 7, some 8] := by decide

/-- **C141**: with a list of fields, each value is that of the field named at its place, whatever the order and the case of the names,
and the other fields are blank. -/
theorem C141_named {α : Type} (fields : List Str) (hl : ∀ f ∈ fields, f.map Char.toLower = f) (vars : Str → Option α) (fs : List Str) (vs : List α)
    (hne : fs ≠ []) (hn : Names fields fs) (hlen : fs.length = vs.length) :
    run fields (.named fs vs) = some (foxRecord fields vars (.named fs vs)) := by
  replace hl : ∀ f ∈ fields, lower f = f := hl
  have hd : dictOf ((fs.map lower).zip vs) = (fs.map lower).zip vs := by
    apply dictOf_eq
    rw [zip_fst _ _ (by simpa using hlen)]
    exact lower_nodup fs hn.2
  have hall : ((fs.map lower).zip vs).all (fun e => e.1 ∈ fields) = true := by
    rw [List.all_eq_true]
    intro e he
    have := (List.of_mem_zip he).1
    obtain ⟨n, hnm, hne'⟩ := List.mem_map.mp this
    obtain ⟨f, hf, hsf⟩ := hn.1 n hnm
    have h2 : lower n = lower f := by
      have : (lower n == lower f) = true := hsf
      simpa using this
    rw [hl f hf, hne'] at h2
    simp [h2, hf]
  simp only [run, convert, if_neg hne, hlen, ne_eq, not_true_eq_false, if_false, Option.bind_some, Model.Insert.insert, appendDict, hd, if_pos hall,
    foxRecord]
  congr 1
  exact List.map_congr_left fun f hf => get_zip f (hl f hf) fs vs

example : run ["name".toList, "st".toList, "zip".toList] (.named ["ZIP".toList, "Name".toList] [8, 7]) = some [some 7, none, some 8] := by decide

/-- **C141**: a statement with more or fewer values than names, or with a name that is no field of the table, makes no record. -/
theorem C141_refused {α : Type} (fields : List Str) (hl : ∀ f ∈ fields, f.map Char.toLower = f) (fs : List Str) (vs : List α) (hne : fs ≠ [])
    (hp : fs.Pairwise fun a b => same a b = false)
    (h : fs.length ≠ vs.length ∨ ∃ n ∈ fs, ∀ f ∈ fields, same n f = false) : run fields (.named fs vs) = none := by
  replace hl : ∀ f ∈ fields, lower f = f := hl
  by_cases hlen : fs.length = vs.length
  · obtain ⟨n, hn, hno⟩ : ∃ n ∈ fs, ∀ f ∈ fields, same n f = false := by
      rcases h with h | h
      · exact absurd hlen h
      · exact h
    have hd : dictOf ((fs.map lower).zip vs) = (fs.map lower).zip vs := by
      apply dictOf_eq
      rw [zip_fst _ _ (by simpa using hlen)]
      exact lower_nodup fs hp
    have hmem : lower n ∈ ((fs.map lower).zip vs).map Prod.fst := by
      rw [zip_fst _ _ (by simpa using hlen)]
      exact List.mem_map_of_mem hn
    have hall : ¬ ((fs.map lower).zip vs).all (fun e => e.1 ∈ fields) = true := by
      intro ha
      obtain ⟨e, he, hen⟩ := List.mem_map.mp hmem
      have := List.all_eq_true.mp ha e he
      simp only [decide_eq_true_eq] at this
      rw [hen] at this
      have h1 := hno _ this
      have h2 : same n (lower n) = true := by
        show (lower n == lower (lower n)) = true
        rw [hl _ this]
        simp
      rw [h1] at h2
      cases h2
    simp only [run, convert, if_neg hne, hlen, ne_eq, not_true_eq_false, if_false, Option.bind_some, Model.Insert.insert, appendDict, hd, if_neg hall]
  · simp [run, convert, hne, hlen]

example : run ["name".toList, "st".toList] (.named ["NAME".toList, "ZIP".toList] [7, 8]) = none ∧
    run ["name".toList, "st".toList] (.named ["NAME".toList] [7, 8]) = none := by decide

/-- **C141**: with FROM NAME each field has the value of the property of its name and is blank if there is none. -/
theorem C141_object {α : Type} (fields : List Str) (vars p : Str → Option α) :
    run fields (.object p) = some (foxRecord fields vars (.object p)) := by
  have hall : (fields.filterMap fun f => (p f).map fun v => (f, v)).all (fun e => e.1 ∈ fields) = true := by
    rw [List.all_eq_true]
    intro e he
    obtain ⟨x, hx, hxe⟩ := List.mem_filterMap.mp he
    cases hpx : p x with
    | none => rw [hpx] at hxe; cases hxe
    | some v => rw [hpx] at hxe; cases hxe; simpa using hx
  show appendDict fields _ = _
  simp only [appendDict, if_pos hall, foxRecord]
  congr 1
  exact List.map_congr_left fun f hf => get_props fields p f hf

example : run ["name".toList, "st".toList] (.object fun f => if f = "st".toList then some 5 else none) = some [none, some 5] := by decide

/-- **C141** (disagreement): INSERT FROM MEMVAR never makes a record; FoxPro makes one of the variables with the names of the fields. -/
theorem C141_memvar_fails {α : Type} (fields : List Str) (vars : Str → Option α) :
    run fields (.memvar : Source α) = none ∧ foxRecord fields vars .memvar = fields.map vars := ⟨rfl, rfl⟩

example : run ["name".toList] (.memvar : Source Nat) = none := (C141_memvar_fails _ fun _ => some 3).1

end Props
