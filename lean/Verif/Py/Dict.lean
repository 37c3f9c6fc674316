import Verif.Py.Basic
/-!
# Python dictionaries

A dictionary is an association list in insertion order, as CPython keeps it.
-/
namespace Py

abbrev Dict (κ α : Type) := List (κ × α)

namespace Dict
variable {κ α : Type} [DecidableEq κ]

/-- `d.get(k)`. -/
def get : Dict κ α → κ → Option α
  | [], _ => none
  | (k', v) :: t, k => if k' = k then some v else get t k

/-- `k in d`. -/
def has (d : Dict κ α) (k : κ) : Bool := (get d k).isSome

/-- `d[k] = v`: overwrites in place, a new key goes to the end. -/
def set : Dict κ α → κ → α → Dict κ α
  | [], k, v => [(k, v)]
  | (k', v') :: t, k, v => if k' = k then (k, v) :: t else (k', v') :: set t k v

/-- `del d[k]` (no effect when the key is missing; the code guards for it). -/
def del (d : Dict κ α) (k : κ) : Dict κ α := d.filter (fun p => p.1 ≠ k)

/-- `list(d)`: every key once (an association list could hold a key twice, a
Python dictionary cannot). -/
def keys : Dict κ α → List κ
  | [] => []
  | (k, _) :: t => k :: (keys t).filter (fun k' => k' ≠ k)

/-- `d.update(e)`. -/
def update (d e : Dict κ α) : Dict κ α := e.foldl (fun acc p => set acc p.1 p.2) d

@[simp] theorem get_nil (k : κ) : get ([] : Dict κ α) k = none := rfl

theorem get_set_self (d : Dict κ α) (k : κ) (v : α) : get (set d k v) k = some v := by
  induction d with
  | nil => simp [set, get]
  | cons p t ih =>
    obtain ⟨k', v'⟩ := p
    by_cases h : k' = k <;> simp [set, get, h, ih]

theorem get_set_ne (d : Dict κ α) {k k' : κ} (v : α) (h : k' ≠ k) :
    get (set d k v) k' = get d k' := by
  induction d with
  | nil => simp [set, get, Ne.symm h]
  | cons p t ih =>
    obtain ⟨k2, v2⟩ := p
    by_cases h2 : k2 = k
    · subst h2; simp [set, get, Ne.symm h]
    · by_cases h3 : k2 = k'
      · subst h3; simp [set, get, h2]
      · simp [set, get, h2, h3, ih]

theorem get_set (d : Dict κ α) (k k' : κ) (v : α) :
    get (set d k v) k' = if k' = k then some v else get d k' := by
  by_cases h : k' = k
  · subst h; simp [get_set_self]
  · simp [h, get_set_ne d v h]

theorem get_del_self (d : Dict κ α) (k : κ) : get (del d k) k = none := by
  induction d with
  | nil => rfl
  | cons p t ih =>
    obtain ⟨k', v⟩ := p
    by_cases h : k' = k
    · simpa [del, h] using ih
    · simpa [del, get, h] using ih

theorem get_del_ne (d : Dict κ α) {k k' : κ} (h : k' ≠ k) : get (del d k) k' = get d k' := by
  induction d with
  | nil => rfl
  | cons p t ih =>
    obtain ⟨k2, v⟩ := p
    by_cases h2 : k2 = k
    · subst h2
      have : get ((k2, v) :: t) k' = get t k' := by simp [get, Ne.symm h]
      rw [this, ← ih]; simp [del]
    · have : del ((k2, v) :: t) k = (k2, v) :: del t k := by simp [del, h2]
      rw [this]; by_cases h3 : k2 = k' <;> simp [get, h3, ih]

theorem get_del (d : Dict κ α) (k k' : κ) :
    get (del d k) k' = if k' = k then none else get d k' := by
  by_cases h : k' = k
  · subst h; simp [get_del_self]
  · simp [h, get_del_ne d h]

theorem has_set (d : Dict κ α) (k k' : κ) (v : α) :
    has (set d k v) k' = (decide (k' = k) || has d k') := by
  simp only [has, get_set]; by_cases h : k' = k <;> simp [h]

theorem has_del (d : Dict κ α) (k k' : κ) :
    has (del d k) k' = (decide (k' ≠ k) && has d k') := by
  simp only [has, get_del]; by_cases h : k' = k <;> simp [h]

theorem has_iff_mem_keys (d : Dict κ α) (k : κ) : has d k = true ↔ k ∈ keys d := by
  induction d with
  | nil => simp [has, keys]
  | cons p t ih =>
    obtain ⟨k', v⟩ := p
    by_cases h : k' = k
    · simp [has, get, keys, h]
    · have : has ((k', v) :: t) k = has t k := by simp [has, get, h]
      rw [this, ih]; simp [keys, Ne.symm h]

theorem nodup_keys (d : Dict κ α) : (keys d).Nodup := by
  induction d with
  | nil => simp [keys]
  | cons p t ih =>
    obtain ⟨k, v⟩ := p
    simp only [keys, List.nodup_cons]
    exact ⟨by simp, ih.filter _⟩

theorem keys_del (d : Dict κ α) (k : κ) : keys (del d k) = (keys d).filter (fun k' => k' ≠ k) := by
  induction d with
  | nil => rfl
  | cons p t ih =>
    obtain ⟨k2, v⟩ := p
    by_cases h2 : k2 = k
    · subst h2
      have : del ((k2, v) :: t) k2 = del t k2 := by simp [del]
      rw [this, ih]; simp [keys, List.filter_filter]
    · have : del ((k2, v) :: t) k = (k2, v) :: del t k := by simp [del, h2]
      rw [this]
      simp only [keys, ih]
      rw [List.filter_cons_of_pos (by simpa using h2)]
      simp only [List.filter_filter]
      congr 1
      apply List.filter_congr
      intro x _
      exact Bool.and_comm _ _

theorem keys_eq_nil {d : Dict κ α} (h : keys d = []) : d = [] := by
  cases d with
  | nil => rfl
  | cons p t => simp [keys] at h

theorem keys_del_head {d : Dict κ α} {k : κ} {ks : List κ} (h : keys d = k :: ks) :
    keys (del d k) = ks := by
  have hn := nodup_keys d
  rw [keys_del, h]
  rw [h, List.nodup_cons] at hn
  rw [List.filter_cons_of_neg (by simp)]
  apply List.filter_eq_self.mpr
  intro x hx
  simp only [ne_eq, decide_not, Bool.not_eq_true', decide_eq_false_iff_not]
  intro c; subst c; exact hn.1 hx

theorem get_none_of_not_mem (d : Dict κ α) (k : κ) (h : k ∉ keys d) : get d k = none := by
  have h2 : ¬ has d k = true := fun c => h ((has_iff_mem_keys d k).mp c)
  simpa [has] using h2

theorem eq_nil_of_keys_nil (d : Dict κ α) (h : ∀ k, get d k = none) : d = [] := by
  cases d with
  | nil => rfl
  | cons p t => have := h p.1; simp [get] at this

end Dict
end Py
