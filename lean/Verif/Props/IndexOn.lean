import Verif.Model.IndexOn
/-!
# C154: INDEX ON
-/
namespace Props

namespace IndexOnSpec

/-- Each is in the given relation to all that come after it. -/
def Ordered {α : Type} (le : α → α → Prop) : List α → Prop
  | [] => True
  | x :: xs => (∀ y ∈ xs, le x y) ∧ Ordered le xs

/-- A name of a field: letters, digits and underscores. -/
def IsName (s : List Char) : Prop := ∀ c ∈ s, c.isAlphanum ∨ c = '_'

/-- The value of a field of a record. -/
def fieldOf (name : List Char) (r : List (List Char × Model.IndexOn.Val)) : Option Model.IndexOn.Val :=
  match r with
  | [] => none
  | (n, v) :: rest => if n = name.map Char.toLower then some v else fieldOf name rest

end IndexOnSpec

namespace IndexOnAux
open Model.IndexOn Model.NameArgs IndexOnSpec
open Model.Database (WS)

theorem walk_eq : ∀ (n k : Nat) (w : WS Rec), w.index = (k : Int) → k + n = w.recs.length → walk n w = w.recs.drop k
  | 0, k, w, _, hn => by simp [walk, List.drop_eq_nil_of_le (by omega : w.recs.length ≤ k)]
  | n + 1, k, w, hk, hn => by
    have hlt : k < w.recs.length := by omega
    have hr : w.record = some w.recs[k] := by
      simp only [WS.record, hk]
      rw [if_neg (by omega)]
      simp [hlt]
    rw [walk, hr, List.drop_eq_getElem_cons hlt]
    simp only [Option.toList, List.cons_append, List.nil_append, List.cons.injEq, true_and]
    by_cases hl : k + 1 < w.recs.length
    · have : (w.skip 1).1 = { w with index := (k : Int) + 1 } := by
        simp only [WS.skip, hk]
        rw [if_neg (by omega), if_neg (by omega), if_pos (by omega)]
      rw [this]
      exact walk_eq n (k + 1) _ (by simp) (by simp only; omega)
    · have h0 : n = 0 := by omega
      subst h0
      rw [walk, List.drop_eq_nil_of_le (by omega)]

theorem visited_eq (t : Table) : visited t = t.ws.recs := by
  unfold visited
  by_cases h : t.ws.recs = []
  · simp [h, walk]
  · have hp : 0 < t.ws.recs.length := List.length_pos_iff.2 h
    have : (t.ws.gotoNum 0).1 = { t.ws with index := ((0 : Nat) : Int) } := by
      simp [WS.gotoNum, WS.goto, hp, h]
    rw [this, walk_eq _ 0 _ rfl (by simp)]
    simp

theorem indexOn_ws {ev : E → Val} {t t' : Table} {c : Cmd} (h : indexOn ev t c = .ok t') : t'.ws = t.ws := by
  unfold indexOn at h
  split at h
  · cases h
  · cases h; rfl

theorem fieldOf_eq (n : List Char) (r : Rec) : r.lookup (n.map Char.toLower) = fieldOf n r := by
  induction r with
  | nil => rfl
  | cons p r ih =>
    obtain ⟨m, v⟩ := p
    simp only [List.lookup, fieldOf]
    by_cases h : m = n.map Char.toLower
    · subst h; simp
    · rw [if_neg h, ← ih]
      have : (n.map Char.toLower == m) = false := beq_eq_false_iff_ne.2 (Ne.symm h)
      rw [this]

theorem keys_error {field : Val} {rs : List Rec} {r : Rec} (hr : r ∈ rs) (h : ∀ v, getattr r field ≠ .ok v) :
    ∃ e, keys field rs = .error e := by
  induction rs with
  | nil => cases hr
  | cons a rs ih =>
    simp only [keys]
    cases ha : getattr a field with
    | error e => exact ⟨e, rfl⟩
    | ok v =>
      rcases List.mem_cons.1 hr with rfl | hr
      · exact absurd ha (h v)
      · obtain ⟨e, he⟩ := ih hr
        exact ⟨e, by simp only [he]⟩

theorem keys_ok {field : Val} {f : Rec → Option Val} {rs : List Rec} (h : ∀ r ∈ rs, ∃ v, f r = some v ∧ getattr r field = .ok v) :
    ∃ ks, keys field rs = .ok ks ∧ ks.map some = rs.map f := by
  induction rs with
  | nil => exact ⟨[], rfl, rfl⟩
  | cons a rs ih =>
    obtain ⟨v, h1, h2⟩ := h a (by simp)
    obtain ⟨ks, h3, h4⟩ := ih fun r hr => h r (by simp [hr])
    exact ⟨v :: ks, by simp only [keys, h2, h3], by simp [h1, h4]⟩

theorem ordered_mem {α : Type} {le : α → α → Prop} {l : List α} (h : Ordered le l) {i j : Nat} (hij : i < j) {x y : α}
    (hx : l[i]? = some x) (hy : l[j]? = some y) : le x y := by
  induction l generalizing i j with
  | nil => simp at hx
  | cons a l ih =>
    cases j with
    | zero => omega
    | succ j =>
      cases i with
      | zero =>
        simp at hx hy
        subst hx
        exact h.1 y (List.mem_of_getElem? hy)
      | succ i =>
        simp at hx hy
        exact ih h.2 (by omega) hx hy

theorem keyErr {ev : E → Val} {t : Table} {c : Cmd} {r : Rec} (hr : r ∈ t.ws.recs)
    (h : ∀ v, getattr r (argument ev c.key) ≠ .ok v) : ∃ e, indexOn ev t c = .error e := by
  obtain ⟨e, he⟩ := keys_error hr h
  exact ⟨e, by simp only [indexOn, he]⟩

end IndexOnAux

open Model.IndexOn Model.NameArgs IndexOnSpec IndexOnAux

/-- **C154**, as far as it holds: with the name of a field as the key, INDEX ON makes an index that has for every
record the value of the field, under the name of the tag, and makes it the current one.  Missing: the records
are not visited in that order (`C154_order_iff`), and other keys (`C154_expression_fails`). -/
theorem C154_field_partial (ev : E → Val) (t : Table) (n tag : List Char) (desc uniq b b' : Bool)
    (hf : ∀ r ∈ t.ws.recs, (fieldOf n r).isSome) (hb : b = false) (hb' : b' = false) :
    ∃ t' ks, indexOn ev t ⟨.expr (.atom n []) b, .expr (.atom tag []) b', desc, uniq⟩ = .ok t' ∧
      t'.current = some (.text (tag.map Char.toLower)) ∧
      Py.Dict.get t'.index (.text (tag.map Char.toLower)) = some ks ∧ ks.map some = t.ws.recs.map (fieldOf n) := by
  subst hb hb'
  have ha : ∀ m, argument ev (.expr (.atom m []) false) = .text (m.map Char.toLower) := by
    intro m
    simp [argument, visit, clean, containsExceptions, E.text, Model.NameArgs.lower]
  obtain ⟨ks, h1, h2⟩ := keys_ok (field := .text (n.map Char.toLower)) (f := fieldOf n) (rs := t.ws.recs) (by
    intro r hr
    obtain ⟨v, hv⟩ := Option.isSome_iff_exists.1 (hf r hr)
    exact ⟨v, hv, by simp only [getattr, fieldOf_eq, hv]⟩)
  refine ⟨{ t with index := Py.Dict.set t.index (.text (tag.map Char.toLower)) ks,
                   current := some (.text (tag.map Char.toLower)) }, ks, by simp only [indexOn, ha, h1], rfl, Py.Dict.get_set_self _ _ _, h2⟩

/-- The records of a demonstration. -/
def IndexOnDemo.people : List Rec :=
  [[("name".toList, .text "Zoe".toList), ("age".toList, .num 7)], [("name".toList, .text "Ann".toList), ("age".toList, .num 41)]]
/-- A table of them. -/
def IndexOnDemo.table : Table :=
  ⟨{ recs := IndexOnDemo.people, name := "people".toList, file := "people.dbf".toList, index := 0, locate := none, found := false }, [], none⟩

example : ∀ r ∈ IndexOnDemo.table.ws.recs, (fieldOf "NAME".toList r).isSome := by decide +kernel

/-- The order of the index is not the order in which the records are visited: after INDEX ON they are in the
order of the key (in whatever sense) exactly if they are in that order in the file. -/
theorem C154_order_iff (ev : E → Val) (t t' : Table) (c : Cmd) (h : indexOn ev t c = .ok t') (key : Rec → Val)
    (le : Val → Val → Prop) : Ordered le ((visited t').map key) ↔ Ordered le (t.ws.recs.map key) := by
  rw [visited_eq, indexOn_ws h]

example : ((indexOn (fun _ => .num 0) IndexOnDemo.table ⟨.expr (.atom "name".toList []) false, .expr (.atom "n".toList []) false, false, false⟩).toOption.map
    fun t => (visited t).map (fieldOf "name".toList)) = some [some (.text "Zoe".toList), some (.text "Ann".toList)] := by decide +kernel

/-- With two different keys, at least one of ascending and descending order is not had. -/
theorem C154_direction_fails (ev : E → Val) (t t' t'' : Table) (key tag : Special) (u : Bool)
    (h : indexOn ev t ⟨key, tag, false, u⟩ = .ok t') (h' : indexOn ev t ⟨key, tag, true, u⟩ = .ok t'') (k : Rec → Val)
    (le : Val → Val → Prop) (anti : ∀ a b, le a b → le b a → a = b) (r s : Rec) (hr : r ∈ t.ws.recs) (hs : s ∈ t.ws.recs)
    (hne : k r ≠ k s) :
    ¬ (Ordered le ((visited t').map k) ∧ Ordered (fun a b => le b a) ((visited t'').map k)) := by
  rw [visited_eq, visited_eq, indexOn_ws h, indexOn_ws h']
  rintro ⟨h1, h2⟩
  obtain ⟨i, hi⟩ := List.getElem?_of_mem hr
  obtain ⟨j, hj⟩ := List.getElem?_of_mem hs
  have e1 : (t.ws.recs.map k)[i]? = some (k r) := by simp [hi]
  have e2 : (t.ws.recs.map k)[j]? = some (k s) := by simp [hj]
  rcases Nat.lt_trichotomy i j with hij | hij | hij
  · exact hne (anti _ _ (ordered_mem h1 hij e1 e2) (ordered_mem h2 hij e1 e2))
  · subst hij; rw [hi] at hj; cases hj; exact hne rfl
  · exact hne (anti _ _ (ordered_mem h2 hij e2 e1) (ordered_mem h1 hij e2 e1))

example : (fieldOf "age".toList IndexOnDemo.people[0]) ≠ fieldOf "age".toList IndexOnDemo.people[1] := by decide +kernel

/-- UNIQUE does not hide the records whose key has occurred before. -/
theorem C154_unique_fails (ev : E → Val) (t t' : Table) (key tag : Special) (d : Bool)
    (h : indexOn ev t ⟨key, tag, d, true⟩ = .ok t') (k : Rec → Val) (i j : Nat) (r s : Rec) (hij : i < j)
    (hi : t.ws.recs[i]? = some r) (hj : t.ws.recs[j]? = some s) (hk : k r = k s) :
    ¬ Ordered (· ≠ ·) ((visited t').map k) := by
  rw [visited_eq, indexOn_ws h]
  intro ho
  exact ordered_mem ho hij (x := k r) (y := k s) (by simp [hi]) (by simp [hj]) hk

example : ∃ t', indexOn (fun _ => .num 0) { IndexOnDemo.table with ws := { IndexOnDemo.table.ws with recs := IndexOnDemo.people ++ IndexOnDemo.people } }
    ⟨.expr (.atom "name".toList []) false, .expr (.atom "n".toList []) false, false, true⟩ = .ok t' := ⟨_, rfl⟩

/-- A key with a function call, parentheses or blanks (`UPPER(name)`, `a + b`) is computed once, when the statement
is executed, and its value is then taken for the name of a field: with a number, or a text that is not the name
of a field, the statement raises an exception. -/
theorem C154_expression_fails (ev : E → Val) (t : Table) (e e' : E) (b : Bool) (tag : Special) (d u : Bool)
    (hc : visit (.expr e b) = .code e') (r : Rec) (hr : r ∈ t.ws.recs) (hv : ∀ s, ev e' = .text s → r.lookup s = none) :
    ∃ err, indexOn ev t ⟨.expr e b, tag, d, u⟩ = .error err := by
  apply keyErr hr
  intro v
  simp only [argument, hc]
  cases he : ev e' with
  | num n => simp [getattr]
  | text s => simp [getattr, hv s he]

/-- The keys that this is about. -/
theorem C154_expression_code (e : E) (h : ∀ a s b, e ≠ .str a s b) (hs : ∀ x, e ≠ .sub x) (b : Bool)
    (hb : b = true ∨ containsExceptions e = true) : visit (.expr e b) = .code e := by
  have : clean (.expr e b) = .expr e b := by
    simp only [clean]
    rw [if_neg]
    rcases hb with hb | hb <;> simp [hb]
  simp only [visit, this]
  cases e with
  | str a s c => exact absurd rfl (h a s c)
  | sub x => exact absurd rfl (hs x)
  | _ => rfl

example : visit (.expr (.atom "UPPER".toList [.call "(name)".toList]) false) = .code (.atom "UPPER".toList [.call "(name)".toList]) ∧
    IndexOnDemo.people[0].lookup "ZOE".toList = none := ⟨rfl, by decide +kernel⟩

/-- A key like `last+first` without blanks is taken for the name of a field as a whole, and raises an exception
in a table with records. -/
theorem C154_joined_fails (ev : E → Val) (t : Table) (op : List Char) (l r : E) (tag : Special) (d u : Bool)
    (hl : containsExceptions l = false) (hr : containsExceptions r = false) (c : Char) (hc : c ∈ op)
    (hop : c ∈ "+-*/=<>#!%^$".toList) (row : Rec) (hrow : row ∈ t.ws.recs)
    (hn : ∀ p ∈ row, IsName p.1) : ∃ err, indexOn ev t ⟨.expr (.bin op l r) false, tag, d, u⟩ = .error err := by
  apply keyErr hrow
  intro v
  have ha : argument ev (.expr (.bin op l r) false) = .text (Model.NameArgs.lower (E.bin op l r).text) := by
    simp [argument, visit, clean, containsExceptions, hl, hr]
  have hmem : c ∈ Model.NameArgs.lower (E.bin op l r).text := by
    have : ∀ c ∈ "+-*/=<>#!%^$".toList, c.toLower = c := by decide
    rw [Model.NameArgs.lower, List.mem_map]
    exact ⟨c, by simp [E.text, hc], this c hop⟩
  have hbad : ¬ IsName (Model.NameArgs.lower (E.bin op l r).text) := by
    intro h
    have : ∀ c ∈ "+-*/=<>#!%^$".toList, ¬ (c.isAlphanum ∨ c = '_') := by decide
    exact this c hop (h c hmem)
  rw [ha]
  have : row.lookup (Model.NameArgs.lower (E.bin op l r).text) = none := by
    rw [List.lookup_eq_none_iff]
    intro p hp
    simp only [bne_iff_ne, ne_eq, beq_eq_false_iff_ne]
    intro e
    exact hbad (e ▸ hn p hp)
  simp [getattr, this]

example : ∀ p ∈ IndexOnDemo.people[0], ∀ c ∈ p.1, c.isAlphanum ∨ c = '_' := by decide +kernel

end Props
