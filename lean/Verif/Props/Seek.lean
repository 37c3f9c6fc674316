import Verif.Model.Seek
/-!
# SEEK (C109)
-/
namespace Props.SeekSpec
open Model.Database (WS)

variable {ρ κ : Type}

/-- `p` is the first record with the key `k`. -/
def IsFirst (key : ρ → κ) (k : κ) (recs : List ρ) (p : Nat) : Prop :=
  (∃ r, recs[p]? = some r ∧ key r = k) ∧ ∀ (q : Nat) r, q < p → recs[q]? = some r → key r ≠ k

/-- The record pointer and FOUND() are as SEEK has to leave them, and the records as they were. -/
def Sought (key : ρ → κ) (k : κ) (w w' : WS ρ) : Prop :=
  w'.recs = w.recs ∧
  (∀ p, IsFirst key k w.recs p → w'.index = p ∧ w'.found = true) ∧
  ((∀ r ∈ w.recs, key r ≠ k) → w'.index = w.recs.length ∧ w'.found = false)

/-- The positions of the records with the key `k`. -/
def positions [DecidableEq κ] (key : ρ → κ) (k : κ) (recs : List ρ) : List Nat :=
  (List.range recs.length).filter fun p => decide (recs[p]?.map key = some k)

end Props.SeekSpec

namespace Props.SeekAux
open Model.Database Model.Seek Py Props.SeekSpec

variable {ρ κ : Type} [DecidableEq κ]

theorem mem_matches {key : ρ → κ} {k : κ} {recs : List ρ} (i p : Nat) :
    p ∈ matchesFrom key k i recs ↔ ∃ j r, p = i + j ∧ recs[j]? = some r ∧ key r = k := by
  induction recs generalizing i with
  | nil => simp [matchesFrom]
  | cons x recs ih =>
    unfold matchesFrom
    have step : (∃ j r, p = i + 1 + j ∧ recs[j]? = some r ∧ key r = k) ↔
        ∃ j r, p = i + (j + 1) ∧ (x :: recs)[j + 1]? = some r ∧ key r = k := by
      constructor
      · rintro ⟨j, r, h1, h2, h3⟩; exact ⟨j, r, by omega, by simpa using h2, h3⟩
      · rintro ⟨j, r, h1, h2, h3⟩; exact ⟨j, r, by omega, by simpa using h2, h3⟩
    split
    · rename_i hx
      rw [List.mem_cons, ih, step]
      constructor
      · rintro (h | ⟨j, r, h1, h2, h3⟩)
        · exact ⟨0, x, by omega, rfl, hx⟩
        · exact ⟨j + 1, r, h1, h2, h3⟩
      · rintro ⟨j, r, h1, h2, h3⟩
        cases j with
        | zero => exact .inl (by omega)
        | succ j => exact .inr ⟨j, r, h1, h2, h3⟩
    · rename_i hx
      rw [ih, step]
      constructor
      · rintro ⟨j, r, h1, h2, h3⟩; exact ⟨j + 1, r, h1, h2, h3⟩
      · rintro ⟨j, r, h1, h2, h3⟩
        cases j with
        | zero =>
          simp only [List.getElem?_cons_zero, Option.some.injEq] at h2
          subst h2
          exact absurd h3 hx
        | succ j => exact ⟨j, r, h1, h2, h3⟩

theorem matches_positions {key : ρ → κ} {k : κ} {recs : List ρ} (i : Nat) :
    matchesFrom key k i recs = (positions key k recs).map (i + ·) := by
  induction recs generalizing i with
  | nil => rfl
  | cons x recs ih =>
    have hs : positions key k (x :: recs) = (if key x = k then [0] else []) ++ (positions key k recs).map (1 + ·) := by
      unfold positions
      rw [List.length_cons, List.range_succ_eq_map, List.filter_cons, List.filter_map]
      have hf : ((fun p => decide ((x :: recs)[p]?.map key = some k)) ∘ Nat.succ) = fun p => decide (recs[p]?.map key = some k) := by
        funext p; simp
      rw [hf]
      have hm : (Nat.succ : Nat → Nat) = (1 + ·) := by funext p; omega
      rw [hm]
      by_cases h : key x = k <;> simp [h]
    rw [matchesFrom, ih, hs, List.map_append, List.map_map]
    have hc : ((fun x => i + x) ∘ fun x => 1 + x) = fun x => i + 1 + x := by funext p; simp only [Function.comp]; omega
    rw [hc]
    split <;> simp

/-- The matches are in ascending order. -/
theorem matches_sorted {key : ρ → κ} {k : κ} {recs : List ρ} (i : Nat) :
    (matchesFrom key k i recs).Pairwise (· < ·) := by
  induction recs generalizing i with
  | nil => exact .nil
  | cons x recs ih =>
    unfold matchesFrom
    split
    · refine List.Pairwise.cons (fun p hp => ?_) (ih _)
      obtain ⟨j, r, h1, _⟩ := (mem_matches _ _).mp hp
      omega
    · exact ih _

theorem goto_match {key : ρ → κ} {k : κ} {w : WS ρ} {p : Nat} (h : p ∈ matchesFrom key k 0 w.recs) :
    w.goto p = .ok { w with index := p } := by
  obtain ⟨j, r, h1, h2, _⟩ := (mem_matches _ _).mp h
  obtain ⟨hl, _⟩ := List.getElem?_eq_some_iff.mp h2
  unfold WS.goto
  rw [if_pos ⟨by omega, by omega⟩, if_neg (by omega)]

/-- A state in which the generator of a search for `k` has still to give `ps`. -/
structure Searching (t : Table ρ κ) (key : ρ → κ) (k : κ) (ps : List Nat) : Prop where
  search : t.search = some ps
  sub : ∀ p ∈ ps, p ∈ matchesFrom key k 0 t.ws.recs

theorem seek_again {t : Table ρ κ} {key : ρ → κ} {k : κ} {ps : List Nat} (h : Searching t key k ps) (k' : κ) :
    (seek t k' none).2 = none ∧ Searching (seek t k' none).1 key k ps.tail ∧
    (seek t k' none).1.ws.recs = t.ws.recs ∧
    (seek t k' none).1.ws.index = (ps.head?.map (fun p => (p : Int))).getD t.ws.recs.length ∧
    (seek t k' none).1.ws.found = ps.head?.isSome := by
  have hs : searchFor t k' none = .ok ps := by simp [searchFor, h.search]
  unfold seek
  rw [hs]
  cases ps with
  | nil => exact ⟨rfl, ⟨rfl, by simp⟩, rfl, rfl, rfl⟩
  | cons p ps =>
    simp only [goto_match (h.sub p (by simp))]
    exact ⟨trivial, ⟨rfl, fun q hq => h.sub q (List.mem_cons_of_mem _ hq)⟩, trivial, rfl, rfl⟩

theorem seek_fresh {t : Table ρ κ} {name : Str} {key : ρ → κ} (ho : t.order = some name)
    (hk : t.orders.get name = some key) {tag : Option Str} (hf : t.search = none ∨ tag.isSome = true) (k : κ) :
    (seek t k tag).2 = none ∧ Searching (seek t k tag).1 key k (matchesFrom key k 0 t.ws.recs).tail ∧
    (seek t k tag).1.ws.recs = t.ws.recs ∧
    (seek t k tag).1.ws.index =
      ((matchesFrom key k 0 t.ws.recs).head?.map (fun p => (p : Int))).getD t.ws.recs.length ∧
    (seek t k tag).1.ws.found = (matchesFrom key k 0 t.ws.recs).head?.isSome := by
  have hs : searchFor t k tag = .ok (matchesFrom key k 0 t.ws.recs) := by
    unfold searchFor
    split
    · rename_i h1
      rcases hf with hf | hf
      · rw [hf] at h1; simp at h1
      · simp at hf
    · simp [ho, hk]
  unfold seek
  rw [hs]
  cases hm : matchesFrom key k 0 t.ws.recs with
  | nil => exact ⟨rfl, ⟨rfl, by simp⟩, rfl, rfl, rfl⟩
  | cons p ps =>
    simp only [goto_match (hm ▸ List.mem_cons_self : p ∈ matchesFrom key k 0 t.ws.recs)]
    exact ⟨trivial, ⟨rfl, fun q hq => by show q ∈ matchesFrom key k 0 t.ws.recs; rw [hm]; exact List.mem_cons_of_mem _ hq⟩, trivial, rfl, rfl⟩

theorem head_first {key : ρ → κ} {k : κ} {recs : List ρ} {p : Nat} (h : IsFirst key k recs p) :
    (matchesFrom key k 0 recs).head? = some p := by
  obtain ⟨⟨r, hr, hk⟩, hmin⟩ := h
  have hp : p ∈ matchesFrom key k 0 recs := (mem_matches _ _).mpr ⟨p, r, by omega, hr, hk⟩
  have hsort := matches_sorted (key := key) (k := k) (recs := recs) 0
  cases hm : matchesFrom key k 0 recs with
  | nil => rw [hm] at hp; simp at hp
  | cons q qs =>
    rw [hm] at hp hsort
    have hq : q ∈ matchesFrom key k 0 recs := by rw [hm]; simp
    obtain ⟨j, r', h1, h2, h3⟩ := (mem_matches _ _).mp hq
    rcases List.mem_cons.mp hp with h | h
    · simp [h]
    · have := List.rel_of_pairwise_cons hsort h
      exact absurd h3 (hmin j r' (by omega) h2)

theorem head_none {key : ρ → κ} {k : κ} {recs : List ρ} (h : ∀ r ∈ recs, key r ≠ k) :
    matchesFrom key k 0 recs = [] := by
  cases hm : matchesFrom key k 0 recs with
  | nil => rfl
  | cons q qs =>
    have hq : q ∈ matchesFrom key k 0 recs := by rw [hm]; simp
    obtain ⟨j, r', _, h2, h3⟩ := (mem_matches _ _).mp hq
    exact absurd h3 (h r' (List.mem_of_getElem? h2))

theorem seeks_run {key : ρ → κ} {k : κ} (ks : List κ) : ∀ {t : Table ρ κ} {ps : List Nat}, Searching t key k ps →
    (seeks t ks).2 = none ∧ Searching (seeks t ks).1 key k (ps.drop ks.length) ∧
    (seeks t ks).1.ws.recs = t.ws.recs := by
  induction ks with
  | nil => intro t ps h; exact ⟨rfl, h, rfl⟩
  | cons k' ks ih =>
    intro t ps h
    obtain ⟨h1, h2, h3, _⟩ := seek_again h k'
    have he : seeks t (k' :: ks) = seeks (seek t k' none).1 ks := by
      rw [seeks]
      split
      · rename_i t' he; rw [he]
      · rename_i t' e he; rw [he] at h1; simp at h1
    rw [he]
    obtain ⟨g1, g2, g3⟩ := ih h2
    refine ⟨g1, ?_, g3.trans h3⟩
    have : ps.drop (k' :: ks).length = ps.tail.drop ks.length := by
      cases ps <;> simp
    rw [this]
    exact g2

/-- A table of names with ages, indexed on the age; the pointer is on the second record. -/
def sample : Table (String × Nat) Nat :=
  { ws := { name := "t".toList, file := "t.dbf".toList, recs := [("ann", 30), ("bob", 40), ("cid", 30)], index := 1,
            locate := none, found := false }
    orders := [("age".toList, Prod.snd)], order := some "age".toList, search := none }

end Props.SeekAux

namespace Props
open Model.Database Model.Seek Py Props.SeekSpec Props.SeekAux

variable {ρ κ : Type} [DecidableEq κ]

/-- C109 (partial): the first SEEK on a table, and every SEEK that names an order, moves to the first
record with the key in the current order and makes FOUND() true, or to the end of the file and makes
it false.  Missing: later SEEK commands (`C109_again_fails`), SEEK naming another order
(`C109_tag_fails`), keys that are the beginning of the key of a record (`C109_prefix_fails`). -/
theorem C109_seek_partial {t : Table ρ κ} {name : Str} {key : ρ → κ} (ho : t.order = some name)
    (hk : t.orders.get name = some key) {tag : Option Str} (hf : t.search = none ∨ tag.isSome = true) (k : κ) :
    (seek t k tag).2 = none ∧ Sought key k t.ws (seek t k tag).1.ws := by
  obtain ⟨h1, _, h3, h4, h5⟩ := seek_fresh ho hk hf k
  refine ⟨h1, h3, fun p hp => ?_, fun hn => ?_⟩
  · rw [h4, h5, head_first hp]
    exact ⟨rfl, rfl⟩
  · rw [h4, h5, head_none hn]
    exact ⟨rfl, rfl⟩

example : (seek sample 40 none).1.ws.index = 1 ∧ (seek sample 40 none).1.ws.found = true :=
  (C109_seek_partial (t := sample) (name := "age".toList) (key := Prod.snd) rfl rfl (.inl rfl) 40).2.2.1 1
    ⟨⟨("bob", 40), rfl, rfl⟩, by
      intro q r hq hr
      have : q = 0 := by omega
      subst this
      simp only [sample, List.getElem?_cons_zero, Option.some.injEq] at hr
      subst hr
      decide⟩

/-- C109 (partial): the order made by INDEX ON is the one that the first SEEK after it looks in. -/
theorem C109_index_partial (t : Table ρ κ) (name : Str) (key : ρ → κ) {tag : Option Str} (hf : t.search = none ∨ tag.isSome = true) (k : κ) :
    (seek (indexOn t name key) k tag).2 = none ∧ Sought key k t.ws (seek (indexOn t name key) k tag).1.ws :=
  C109_seek_partial (t := indexOn t name key) (name := name) rfl (Dict.get_set_self _ _ _) hf k

example : (seek (indexOn { sample with order := none } "age".toList Prod.snd) 40 none).1.ws.found = true := by decide +kernel

/-- C109: SEEK in a table without an order is an error, which ends the program at the first SEEK. -/
theorem C109_no_order {t : Table ρ κ} (ho : t.order = none) (hf : t.search = none) (k : κ) (ks : List κ) :
    ∃ e, seeks t (k :: ks) = (t, some e) := by
  refine ⟨.indexError, ?_⟩
  simp [seeks, seek, searchFor, ho, hf]

example : ({ sample with order := none } : Table _ _).order = none ∧ ({ sample with order := none } : Table _ _).search = none := ⟨rfl, rfl⟩

/-- C109: after the first SEEK all further ones without an order give the records with the key of the
first one, one after the other, whatever keys they are given; then the end of the file. -/
theorem C109_again_fails {t : Table ρ κ} {name : Str} {key : ρ → κ} (ho : t.order = some name)
    (hk : t.orders.get name = some key) (hf : t.search = none) (k : κ) (ks : List κ) (k' : κ) :
    ∃ t', seeks t (k :: ks) = (t', none) ∧ (seek t' k' none).2 = none ∧
      (∀ p, (positions key k t.ws.recs)[ks.length + 1]? = some p →
        (seek t' k' none).1.ws.index = p ∧ (seek t' k' none).1.ws.found = true) ∧
      ((positions key k t.ws.recs).length ≤ ks.length + 1 →
        (seek t' k' none).1.ws.index = t.ws.recs.length ∧ (seek t' k' none).1.ws.found = false) ∧
      ((∃ r ∈ t.ws.recs, key r = k') → k' ≠ k → ¬ Sought key k' t'.ws (seek t' k' none).1.ws) := by
  have hpos : positions key k t.ws.recs = matchesFrom key k 0 t.ws.recs := by
    rw [matches_positions, show (fun x => 0 + x) = (id : Nat → Nat) by funext p; simp, List.map_id]
  rw [hpos]
  obtain ⟨h1, h2, h3, _⟩ := seek_fresh ho hk (tag := none) (.inl hf) k
  have he : seeks t (k :: ks) = seeks (seek t k none).1 ks := by
    rw [seeks]
    split
    · rename_i t' he; rw [he]
    · rename_i t' e he; rw [he] at h1; simp at h1
  obtain ⟨g1, g2, g3⟩ := seeks_run ks h2
  refine ⟨(seeks (seek t k none).1 ks).1, ?_, ?_⟩
  · rw [he]; exact Prod.ext rfl g1
  · generalize hT : (seeks (seek t k none).1 ks).1 = t' at g2 g3
    have hrec : t'.ws.recs = t.ws.recs := g3.trans h3
    obtain ⟨e1, e2, e3, e4, e5⟩ := seek_again g2 k'
    have hd : (matchesFrom key k 0 t.ws.recs).tail.drop ks.length =
        (matchesFrom key k 0 t.ws.recs).drop (ks.length + 1) := by
      rw [← List.drop_one, List.drop_drop, Nat.add_comm]
    rw [hd] at e4 e5 g2
    rw [List.head?_drop] at e4 e5
    refine ⟨e1, fun p hp => ?_, fun hlen => ?_, ?_⟩
    · rw [e4, e5, hp]; exact ⟨rfl, rfl⟩
    · rw [e4, e5, List.getElem?_eq_none hlen, hrec]; exact ⟨rfl, rfl⟩
    · rintro ⟨r, hr, hkr⟩ hne ⟨_, hs, _⟩
      -- the first record with the key
      have hex : ∃ p, IsFirst key k' t'.ws.recs p := by
        rw [hrec]
        cases hm : matchesFrom key k' 0 t.ws.recs with
        | nil =>
          obtain ⟨j, hj, hje⟩ := List.getElem_of_mem hr
          have : j ∈ matchesFrom key k' 0 t.ws.recs :=
            (mem_matches _ _).mpr ⟨j, r, by omega, by simp [hj, hje], hkr⟩
          rw [hm] at this; simp at this
        | cons q qs =>
          have hsort := matches_sorted (key := key) (k := k') (recs := t.ws.recs) 0
          have hq : q ∈ matchesFrom key k' 0 t.ws.recs := by rw [hm]; simp
          obtain ⟨j, r', j1, j2, j3⟩ := (mem_matches _ _).mp hq
          refine ⟨q, ⟨r', by rw [j1]; simpa using j2, j3⟩, fun q' r'' hlt hr'' hkk => ?_⟩
          have hq' : q' ∈ matchesFrom key k' 0 t.ws.recs := (mem_matches _ _).mpr ⟨q', r'', by omega, hr'', hkk⟩
          rw [hm] at hq' hsort
          rcases List.mem_cons.mp hq' with h | h
          · omega
          · have := List.rel_of_pairwise_cons hsort h; omega
      obtain ⟨p, hp⟩ := hex
      obtain ⟨hi, hfound⟩ := hs p hp
      rw [e5] at hfound
      obtain ⟨q, hq⟩ := Option.isSome_iff_exists.mp hfound
      rw [e4, hq] at hi
      have hqp : q = p := Int.ofNat.inj hi
      have hmem := List.mem_of_getElem? hq
      obtain ⟨j, r', j1, j2, j3⟩ := (mem_matches _ _).mp hmem
      obtain ⟨⟨r'', hr'', hk''⟩, _⟩ := hp
      rw [hrec, ← hqp, j1, Nat.zero_add, j2] at hr''
      have : r' = r'' := Option.some.inj hr''
      rw [this] at j3
      exact hne (hk''.symm.trans j3)

/-- SEEK 30, then SEEK 40: the pointer is on the other record with 30. -/
example : ∃ t', seeks sample [30] = (t', none) ∧ (seek t' 40 none).1.ws.index = 2 := by
  obtain ⟨t', h1, _, h3, _⟩ := C109_again_fails (t := sample) (name := "age".toList) (key := Prod.snd) rfl
    rfl rfl 30 [] 40
  exact ⟨t', h1, (h3 2 (by decide +kernel)).1⟩

/-- C109: after an unsuccessful first SEEK every further one is unsuccessful, whatever it looks for. -/
theorem C109_stuck_fails {t : Table ρ κ} {name : Str} {key : ρ → κ} (ho : t.order = some name)
    (hk : t.orders.get name = some key) (hf : t.search = none) {k : κ} (hn : ∀ r ∈ t.ws.recs, key r ≠ k)
    (ks : List κ) (k' : κ) :
    ∃ t', seeks t (k :: ks) = (t', none) ∧ (seek t' k' none).1.ws.found = false ∧
      (seek t' k' none).1.ws.index = t.ws.recs.length := by
  obtain ⟨t', h1, _, _, h4, _⟩ := C109_again_fails ho hk hf k ks k'
  have hp : positions key k t.ws.recs = [] := by
    unfold positions
    rw [List.filter_eq_nil_iff]
    intro p hp
    have hlt := List.mem_range.mp hp
    simp [List.getElem?_eq_getElem hlt, hn _ (List.getElem_mem hlt)]
  rw [hp] at h4
  have := h4 (by simp)
  exact ⟨t', h1, this.2, this.1⟩

example : ∃ t', seeks sample [99, 1, 2] = (t', none) ∧ (seek t' 40 none).1.ws.found = false := by
  obtain ⟨t', h1, h2, _⟩ := C109_stuck_fails (t := sample) (name := "age".toList) (key := Prod.snd) rfl
    rfl rfl (k := 99) (by decide +kernel) [1, 2] 40
  exact ⟨t', h1, h2⟩

/-- C109: an order named in the command is not used: the search is in the current order. -/
theorem C109_tag_fails {t : Table ρ κ} {name other : Str} {key key' : ρ → κ} (ho : t.order = some name)
    (hk : t.orders.get name = some key) (_hk' : t.orders.get other = some key') {k : κ} {p q : Nat}
    (hp : IsFirst key k t.ws.recs p) (hq : IsFirst key' k t.ws.recs q) (hne : p ≠ q) :
    (seek t k (some other)).1.ws.index = p ∧ ¬ Sought key' k t.ws (seek t k (some other)).1.ws := by
  have h := (C109_seek_partial ho hk (tag := some other) (.inr rfl) k).2.2.1 p hp
  refine ⟨h.1, fun hs => ?_⟩
  have := (hs.2.1 q hq).1
  rw [h.1] at this
  omega

/-- The order of the ages is current and the order of the sizes is named. -/
example : (seek ({ ws := { name := [], file := [], recs := [(1, 2), (2, 1)], index := 0, locate := none, found := false }
                   orders := [("age".toList, Prod.fst), ("size".toList, Prod.snd)], order := some "age".toList,
                   search := none } : Table (Nat × Nat) Nat) 2 (some "size".toList)).1.ws.index = 1 :=
  (C109_tag_fails (name := "age".toList) (other := "size".toList) (key := Prod.fst) (key' := Prod.snd) rfl
    rfl rfl (p := 1) (q := 0)
    ⟨⟨(2, 1), rfl, rfl⟩, by
      intro j r hj hr
      have : j = 0 := by omega
      subst this
      simp only [List.getElem?_cons_zero, Option.some.injEq] at hr
      subst hr
      decide⟩
    ⟨⟨(1, 2), rfl, rfl⟩, by omega⟩ (by decide)).1

/-- C109: a text that only begins the keys of records is not found (FoxPro finds the first such record
unless SET EXACT is on). -/
theorem C109_prefix_fails {t : Table ρ (List Char)} {name : Str} {key : ρ → List Char} (ho : t.order = some name)
    (hk : t.orders.get name = some key) (hf : t.search = none) {k : List Char}
    (hn : ∀ r ∈ t.ws.recs, key r ≠ k) (_hp : ∃ r ∈ t.ws.recs, k.isPrefixOf (key r) = true) :
    (seek t k none).1.ws.found = false ∧ (seek t k none).1.ws.index = t.ws.recs.length :=
  have h := (C109_seek_partial ho hk (tag := none) (.inl hf) k).2.2.2 hn
  ⟨h.2, h.1⟩

example : (seek ({ ws := { name := [], file := [], recs := ["Smith".toList], index := 0, locate := none, found := false }
                   orders := [("n".toList, id)], order := some "n".toList, search := none } :
                     Table (List Char) (List Char)) "Sm".toList none).1.ws.found = false :=
  (C109_prefix_fails (name := "n".toList) (key := id) rfl rfl rfl (by decide) ⟨"Smith".toList, by simp, by decide⟩).1

end Props
