import Verif.Model.ReplaceFields
import Verif.Props.Database
import Verif.Props.Workareas
import Verif.Props.Objects
/-! C151: REPLACE with several fields. -/

namespace Props.ReplaceFieldsSpec
open Model.Database (Str Rec Scope)
open Model.ReplaceFields (Tok Clause)

/-- A field and the value it is to get, computed from the record. -/
abbrev Assign := Str × (Rec → Int)

/-- The fields of the statement as one writes them: `f1 WITH v1, f2 WITH v2, ...`. -/
def written : List Assign → List Tok
  | [] => []
  | [(f, v)] => [.name f, .with_, .value v]
  | (f, v) :: a :: as => .name f :: .with_ :: .value v :: .comma :: written (a :: as)

/-- The record after the assignments, one after the other. -/
def assign : List Assign → Rec → Rec
  | [], x => x
  | (f, v) :: as, x => assign as { fields := fun g => if g = f.map Char.toLower then v x else x.fields g, deleted := x.deleted }

/-- A field name as one writes it: letters, digits and underscores, at least one. -/
def FieldName (f : Str) : Prop := f ≠ [] ∧ ∀ c ∈ f, c.isAlphanum ∨ c = '_'

/-- The clauses that choose a range of records. -/
def ranges (cs : List Clause) : List Scope := cs.filterMap fun c => match c with | .scope s => some s | _ => none

end Props.ReplaceFieldsSpec

namespace Props.ReplaceFieldsAux
open Model.Database Model.ReplaceFields ReplaceFieldsSpec

theorem fieldName_ne {f : Str} (h : FieldName f) : ∃ c cs, f = c :: cs := by
  obtain ⟨h, _⟩ := h
  cases f with
  | nil => exact absurd rfl h
  | cons c cs => exact ⟨c, cs, rfl⟩

theorem split_field {f : Str} (h : FieldName f) : split f = (.none, lower f) := by
  have hd : ∀ c ∈ (lower f).reverse, (fun c => !decide (c = '.')) c = true := by
    intro c hc
    simp only [lower, List.mem_reverse, List.mem_map] at hc
    obtain ⟨d, hd, rfl⟩ := hc
    simp only [Bool.not_eq_true', decide_eq_false_iff_not]
    intro he
    have := WorkareasAux.toLower_dot he
    subst this
    rcases h.2 _ hd with h | h <;> revert h <;> decide
  have ht : (lower f).reverse.takeWhile (fun c => !decide (c = '.')) = (lower f).reverse := by
    have := List.takeWhile_append_of_pos (l₂ := []) hd
    simpa using this
  simp only [split, ht, List.reverse_reverse, Nat.sub_self, List.take_zero]

theorem pathname_with (ts : List Tok) : pathname (.with_ :: ts) = ([], .with_ :: ts) := by
  simp [pathname]

theorem parse_field {f : Str} (h : FieldName f) (v : Rec → Int) (ts : List Tok) :
    parse (.name f :: .with_ :: .value v :: ts) = (parse ts).map fun x => x.addField f v := by
  obtain ⟨c, cs, rfl⟩ := fieldName_ne h
  rw [parse.eq_def]
  simp [pathname]

theorem parse_comma (f : Str) (v : Rec → Int) (ts : List Tok) :
    parse (.comma :: .name f :: .with_ :: .value v :: ts) = (parse ts).map fun x => x.addField (',' :: f) v := by
  rw [parse.eq_def]
  simp [pathname]

theorem parse_clauses (cs : List Clause) (ts : List Tok) :
    parse (cs.map .clause ++ ts) = (parse ts).map fun x => { x with conditions := cs ++ x.conditions } := by
  induction cs with
  | nil => simp
  | cons c cs ih =>
    rw [List.map_cons, List.cons_append, parse.eq_def]
    simp only [ih, Option.map_map]
    rfl

theorem parse_nil : parse [] = some ⟨[], [], []⟩ := by rw [parse.eq_def]

/-- The fields after a comma. -/
theorem parse_more (as : List Assign) (hne : as ≠ []) (post : List Clause) :
    ∃ ns vs, parse (.comma :: (written as ++ post.map .clause)) = some ⟨ns, vs, post⟩ := by
  induction as with
  | nil => exact absurd rfl hne
  | cons a as ih =>
    obtain ⟨f, v⟩ := a
    cases as with
    | nil =>
      have hp := parse_clauses post []
      simp only [List.append_nil, parse_nil, Option.map_some] at hp
      refine ⟨[',' :: f], [v], ?_⟩
      simp only [written, List.cons_append, List.nil_append, parse_comma, hp, Option.map_some, Ctx.addField]
    | cons b bs =>
      obtain ⟨ns, vs, h⟩ := ih (by simp)
      refine ⟨(',' :: f) :: ns, v :: vs, ?_⟩
      simp only [written, List.cons_append, parse_comma, h, Option.map_some, Ctx.addField]

theorem parse_written {f : Str} (h : FieldName f) (v : Rec → Int) (as : List Assign) (pre post : List Clause) :
    ∃ ns vs, parse (pre.map .clause ++ (written ((f, v) :: as) ++ post.map .clause)) =
      some ⟨f :: ns, v :: vs, pre ++ post⟩ := by
  rw [parse_clauses]
  cases as with
  | nil =>
    have hp := parse_clauses post []
    simp only [List.append_nil, parse_nil, Option.map_some] at hp
    exact ⟨[], [], by simp only [written, List.cons_append, List.nil_append, parse_field h, hp, Option.map_some, Ctx.addField]⟩
  | cons b bs =>
    obtain ⟨ns, vs, hm⟩ := parse_more (b :: bs) (by simp) post
    exact ⟨ns, vs, by simp only [written, List.cons_append, parse_field h, hm, Option.map_some, Ctx.addField]⟩

theorem run_eq (db : DB Rec) {f : Str} (h : FieldName f) (v : Rec → Int) (as : List Assign) (pre post : List Clause) :
    runReplace db (pre.map .clause ++ (written ((f, v) :: as) ++ post.map .clause)) =
      (conditions (pre ++ post)).map fun q => replaceStmt db .none (lower f) v q := by
  obtain ⟨ns, vs, hp⟩ := parse_written h v as pre post
  simp only [runReplace, hp]
  cases conditions (pre ++ post) with
  | none => rfl
  | some q => simp only [split_field h, Option.map_some]

theorem lower_lower (f : Str) : lower (lower f) = lower f := by
  simp only [lower, List.map_map]
  apply List.map_congr_left
  intro c _
  exact (ObjectsAux.letter c).2.2.1

theorem lower_lower' (f : Str) : (lower f).map Char.toLower = f.map Char.toLower := lower_lower f

theorem conditions_ranges (cs : List Clause) : (2 ≤ (ranges cs).length → conditions cs = none) ∧
    ((ranges cs).length < 2 → ∃ f w, conditions cs = some ⟨(ranges cs).head?, f, w⟩) := by
  have hlen : (cs.filter fun c => match c with | .scope _ => true | _ => false).length = (ranges cs).length := by
    unfold ranges
    induction cs with
    | nil => rfl
    | cons c cs ih => cases c <;> simp [ih]
  have hfold : ∀ (cs : List Clause) (q : Query Rec), ∃ f w,
      cs.foldl (fun q c => match c with
        | .scope s => { q with scope := some s }
        | .for_ c => { q with forC := some c }
        | .while_ c => { q with whileC := some c }
        | .nooptimize => q) q = ⟨(ranges cs).getLast?.or q.scope, f, w⟩ := by
    intro cs
    induction cs with
    | nil => intro q; exact ⟨q.forC, q.whileC, rfl⟩
    | cons c cs ih =>
      intro q
      rw [List.foldl_cons]
      cases c with
      | scope s =>
        obtain ⟨f, w, h⟩ := ih { q with scope := some s }
        refine ⟨f, w, h.trans ?_⟩
        simp only [ranges, List.filterMap_cons]
        congr 1
        rw [List.getLast?_cons]
        cases h : (List.filterMap (fun c : Clause => match c with | .scope s => some s | _ => none) cs).getLast? <;> simp
      | for_ c => obtain ⟨f, w, h⟩ := ih { q with forC := some c }; exact ⟨f, w, h⟩
      | while_ c => obtain ⟨f, w, h⟩ := ih { q with whileC := some c }; exact ⟨f, w, h⟩
      | nooptimize => exact ih q
  unfold conditions
  refine ⟨fun h => if_pos (Nat.lt_of_lt_of_eq (by omega : 1 < (ranges cs).length) hlen.symm), fun h => ?_⟩
  obtain ⟨f, w, hf⟩ := hfold cs ⟨none, none, none⟩
  refine ⟨f, w, (if_neg (fun hh => absurd (Nat.lt_of_lt_of_eq hh hlen) (by omega))).trans ((congrArg some hf).trans ?_)⟩
  cases hr : ranges cs with
  | nil => rfl
  | cons s r =>
    rw [hr] at h
    cases r with
    | nil => rfl
    | cons _ _ => simp at h; omega

theorem split_table {t f : Str} (ht : FieldName t) (h : FieldName f) : split (t ++ '.' :: f) = (.str (lower t), lower f) := by
  have hd : ∀ c ∈ (lower f).reverse, (fun c => !decide (c = '.')) c = true := by
    intro c hc
    simp only [lower, List.mem_reverse, List.mem_map] at hc
    obtain ⟨d, hd, rfl⟩ := hc
    simp only [Bool.not_eq_true', decide_eq_false_iff_not]
    intro he
    have := WorkareasAux.toLower_dot he
    subst this
    rcases h.2 _ hd with h | h <;> revert h <;> decide
  have hl : lower (t ++ '.' :: f) = lower t ++ '.' :: lower f := by simp [lower]
  have hw : (lower t ++ '.' :: lower f).reverse.takeWhile (fun c => !decide (c = '.')) = (lower f).reverse := by
    rw [List.reverse_append, List.reverse_cons, List.append_assoc, List.takeWhile_append_of_pos hd]
    simp
  have h3 : (lower t ++ '.' :: lower f).take ((lower t ++ '.' :: lower f).length - (lower f).length) = lower t ++ ['.'] := by
    have : (lower t ++ '.' :: lower f).length - (lower f).length = (lower t ++ ['.']).length := by simp; omega
    rw [this, show lower t ++ '.' :: lower f = (lower t ++ ['.']) ++ lower f by simp, List.take_left]
  simp only [split, hl, hw, List.reverse_reverse, h3]
  have hne : lower t ++ ['.'] ≠ [] := by simp
  split
  · rename_i e; exact absurd e hne
  · rw [List.dropLast_concat]

end Props.ReplaceFieldsAux

namespace Props
open Model.Database Model.ReplaceFields ReplaceFieldsSpec ReplaceFieldsAux DatabaseAux
open Spec.Database (scopeRange setField)

/-- C151 fails: a REPLACE with several fields is converted, and what it does is what REPLACE with its first
field alone does; the other fields are dropped without a message. -/
theorem C151_dropped_fails (db : DB Rec) {f : Str} (h : FieldName f) (v : Rec → Int) (as : List Assign)
    (pre post : List Clause) :
    runReplace db (pre.map .clause ++ (written ((f, v) :: as) ++ post.map .clause)) =
      runReplace db (pre.map .clause ++ (written [(f, v)] ++ post.map .clause)) := by
  rw [run_eq db h, run_eq db h]

example : FieldName "price".toList ∧
    (runReplace { areas := [some (rtbl [5, 6, 7] 1)], current := 0 }
      (written [("price".toList, fun _ => 1), ("Stock".toList, fun _ => 2)])).isSome = true := by
  refine ⟨⟨by decide, by decide⟩, ?_⟩
  have := run_eq { areas := [some (rtbl [5, 6, 7] 1)], current := 0 } (f := "price".toList) ⟨by decide, by decide⟩
    (fun _ => 1) [("Stock".toList, fun _ => 2)] [] []
  simp only [List.map_nil, List.nil_append, List.append_nil] at this
  rw [this]
  rfl

/-- C151, the exact condition: on an open table with a current record `x0`, REPLACE of any number of fields does
what is written exactly if in every record in scope all assignments together amount to giving the first field
the value computed from `x0`. -/
theorem C151_iff {db : DB Rec} {a : Nat} {w : WS Rec} {x0 : Rec} (h : At db .none a w) (hp : Positioned w)
    (hx : w.record = some x0) {f : Str} (hf : FieldName f) (v : Rec → Int) (as : List Assign) (scope : Scope) :
    ∃ db' e w', runReplace db (.clause (.scope scope) :: written ((f, v) :: as)) = some (db', e) ∧
      tableAt db' a = some w' ∧
      ((∀ k x, k ∈ scopeRange scope w.index.toNat w.recs.length → w.recs[k]? = some x →
          w'.recs[k]? = some (assign ((f, v) :: as) x)) ↔
        ∀ k x, k ∈ scopeRange scope w.index.toNat w.recs.length → w.recs[k]? = some x →
          assign ((f, v) :: as) x = setField x (f.map Char.toLower) (v x0)) := by
  have hr := run_eq db hf v as [.scope scope] []
  simp only [List.map_cons, List.map_nil, List.append_nil, List.cons_append, List.nil_append] at hr
  have hc : conditions [.scope scope] = some ⟨some scope, none, none⟩ := rfl
  rw [hc, Option.map_some] at hr
  have hq : replaceStmt db .none (lower f) v ⟨some scope, none, none⟩ = replace db .none scope (lower f) (v x0) := by
    simp only [replaceStmt, tableInfo_at h, hx]
    rfl
  rw [hq] at hr
  obtain ⟨_, w', h2, h3, h4⟩ := C27_replace_partial h hp scope (lower f) (v x0)
  refine ⟨_, _, w', hr, h2, ?_⟩
  have key : ∀ k x, k ∈ scopeRange scope w.index.toNat w.recs.length → w.recs[k]? = some x →
      w'.recs[k]? = some (setField x (f.map Char.toLower) (v x0)) := by
    intro k x hk hx
    rw [h4 k x hx, if_pos hk, lower_lower']
  constructor
  · intro H k x hk hx
    have := H k x hk hx
    rw [key k x hk hx] at this
    exact (Option.some.inj this).symm
  · intro H k x hk hx
    rw [key k x hk hx, H k x hk hx]

example : At { areas := [some (rtbl [5, 6, 7] 1)], current := 0 } .none 0 (rtbl [5, 6, 7] 1) ∧
    Positioned (rtbl [5, 6, 7] 1) ∧ (rtbl [5, 6, 7] 1).record = some (rec1 6) ∧ scopeRange .all 1 3 = [0, 1, 2] :=
  ⟨⟨rfl, rfl⟩, Or.inr (by simp [rtbl]), rfl, by decide⟩

/-- C151 for one field and a value that is the same for all records.  Missing: several fields,
see `C151_fields_fails`. -/
theorem C151_single_partial {db : DB Rec} {a : Nat} {w : WS Rec} {x0 : Rec} (h : At db .none a w) (hp : Positioned w)
    (hx : w.record = some x0) {f : Str} (hf : FieldName f) (v : Int) (scope : Scope) :
    ∃ db' e w', runReplace db (.clause (.scope scope) :: written [(f, fun _ => v)]) = some (db', e) ∧
      tableAt db' a = some w' ∧
      ∀ k x, k ∈ scopeRange scope w.index.toNat w.recs.length → w.recs[k]? = some x →
        w'.recs[k]? = some (assign [(f, fun _ => v)] x) := by
  obtain ⟨db', e, w', h1, h2, h3⟩ := C151_iff h hp hx hf (fun _ => v) [] scope
  exact ⟨db', e, w', h1, h2, h3.mpr fun _ _ _ _ => rfl⟩

example : At { areas := [some (rtbl [5, 6, 7] 1)], current := 0 } .none 0 (rtbl [5, 6, 7] 1) ∧
    (rtbl [5, 6, 7] 1).record = some (rec1 6) ∧ FieldName "Unit_price".toList :=
  ⟨⟨rfl, rfl⟩, rfl, by decide, by decide⟩

/-- C151 fails: every field but the first keeps its old value in all records, and so the statement does
not do what is written whenever it should change another field of a record in scope. -/
theorem C151_fields_fails {db : DB Rec} {a : Nat} {w : WS Rec} {x0 : Rec} (h : At db .none a w) (hp : Positioned w)
    (hx : w.record = some x0) {f : Str} (hf : FieldName f) (v : Rec → Int) (as : List Assign) (scope : Scope) :
    ∃ db' e w', runReplace db (.clause (.scope scope) :: written ((f, v) :: as)) = some (db', e) ∧
      tableAt db' a = some w' ∧
      (∀ (k : Nat) (x : Rec) (g : Str), w.recs[k]? = some x → g ≠ f.map Char.toLower → (w'.recs[k]?).map (fun y => y.fields g) = some (x.fields g)) ∧
      ((∃ k x g, k ∈ scopeRange scope w.index.toNat w.recs.length ∧ w.recs[k]? = some x ∧ g ≠ f.map Char.toLower ∧
          (assign ((f, v) :: as) x).fields g ≠ x.fields g) →
        ∃ k x, k ∈ scopeRange scope w.index.toNat w.recs.length ∧ w.recs[k]? = some x ∧
          w'.recs[k]? ≠ some (assign ((f, v) :: as) x)) := by
  have hr := run_eq db hf v as [.scope scope] []
  simp only [List.map_cons, List.map_nil, List.append_nil, List.cons_append, List.nil_append] at hr
  have hc : conditions [.scope scope] = some ⟨some scope, none, none⟩ := rfl
  rw [hc, Option.map_some] at hr
  have hq : replaceStmt db .none (lower f) v ⟨some scope, none, none⟩ = replace db .none scope (lower f) (v x0) := by
    simp only [replaceStmt, tableInfo_at h, hx]
    rfl
  rw [hq] at hr
  obtain ⟨_, w', h2, h3, h4⟩ := C27_replace_partial h hp scope (lower f) (v x0)
  have key : ∀ (k : Nat) (x : Rec) (g : Str), w.recs[k]? = some x → g ≠ f.map Char.toLower → (w'.recs[k]?).map (fun y => y.fields g) = some (x.fields g) := by
    intro k x g hx hg
    rw [h4 k x hx]
    split
    · rw [lower_lower']
      simp only [Option.map_some, setField]
      rw [if_neg hg]
    · rfl
  refine ⟨_, _, w', hr, h2, key, ?_⟩
  rintro ⟨k, x, g, hk, hx, hg, hne⟩
  refine ⟨k, x, hk, hx, fun he => ?_⟩
  have := key k x g hx hg
  rw [he] at this
  exact hne (Option.some.inj this)

example : At { areas := [some (rtbl [5, 6, 7] 1)], current := 0 } .none 0 (rtbl [5, 6, 7] 1) ∧
    (rtbl [5, 6, 7] 1).recs[2]? = some (rec1 7) ∧ 2 ∈ scopeRange .all 1 3 ∧
    (assign [("price".toList, fun _ => 1), ("Stock".toList, fun _ => 2)] (rec1 7)).fields "stock".toList ≠
      (rec1 7).fields "stock".toList := by
  refine ⟨⟨rfl, rfl⟩, rfl, by decide, ?_⟩
  decide +kernel

/-- C151: of the clauses only the range of records counts: FOR and WHILE are dropped, and a statement with two ranges is not
converted. -/
theorem C151_clauses_fails (db : DB Rec) {f : Str} (h : FieldName f) (v : Rec → Int) (as : List Assign) (pre post : List Clause) :
    (2 ≤ (ranges (pre ++ post)).length →
      runReplace db (pre.map .clause ++ (written ((f, v) :: as) ++ post.map .clause)) = none) ∧
    ((ranges (pre ++ post)).length < 2 →
      runReplace db (pre.map .clause ++ (written ((f, v) :: as) ++ post.map .clause)) =
        runReplace db ((ranges (pre ++ post)).map (fun s => .clause (.scope s)) ++ written [(f, v)])) := by
  have h2 := run_eq db h v [] ((ranges (pre ++ post)).map .scope) []
  simp only [List.map_nil, List.append_nil, List.map_map] at h2
  rw [show ((ranges (pre ++ post)).map (fun s => Tok.clause (.scope s))) = (ranges (pre ++ post)).map (Tok.clause ∘ Clause.scope) from rfl,
    h2, run_eq db h v as pre post]
  refine ⟨fun hl => by rw [(conditions_ranges _).1 hl]; rfl, fun hl => ?_⟩
  obtain ⟨f1, w1, e1⟩ := (conditions_ranges (pre ++ post)).2 hl
  have hr : ranges ((ranges (pre ++ post)).map .scope) = ranges (pre ++ post) := by
    generalize ranges (pre ++ post) = l
    induction l with
    | nil => rfl
    | cons s l ih => simp only [ranges, List.map_cons, List.filterMap_cons] at ih ⊢; rw [ih]
  obtain ⟨f2, w2, e2⟩ := (conditions_ranges ((ranges (pre ++ post)).map .scope)).2 (by rw [hr]; exact hl)
  rw [e1, e2, hr]
  rfl

example : FieldName "price".toList ∧ (ranges [.for_ fun _ _ => false, .scope .all]).length < 2 ∧
    2 ≤ (ranges [.scope .rest, .for_ fun _ _ => false, .scope .all]).length :=
  ⟨⟨by decide, by decide⟩, by simp [ranges], by simp [ranges]⟩

/-- C151: `alias.field WITH v` changes the records of the table with that alias and no other table; the value is computed from the
record that is current in the selected table. -/
theorem C151_table {db : DB Rec} {a b : Nat} {w0 w : WS Rec} {x0 : Rec} (h0 : At db .none b w0) (hx : w0.record = some x0)
    {t f : Str} (ht : FieldName t) (hf : FieldName f) (h : At db (.str (t.map Char.toLower)) a w) (hp : Positioned w) (v : Rec → Int) (scope : Scope) :
    ∃ db' e w', runReplace db (.clause (.scope scope) :: written [(t ++ '.' :: f, v)]) = some (db', e) ∧
      tableAt db' a = some w' ∧ (∀ c, c ≠ a → db'.areas[c]? = db.areas[c]?) ∧
      ∀ k x, w.recs[k]? = some x → w'.recs[k]? =
        some (if k ∈ scopeRange scope w.index.toNat w.recs.length then setField x (f.map Char.toLower) (v x0) else x) := by
  have hpn : parse (.clause (.scope scope) :: written [(t ++ '.' :: f, v)]) = some ⟨[t ++ '.' :: f], [v], [.scope scope]⟩ := by
    have := parse_clauses [.scope scope] (written [(t ++ '.' :: f, v)])
    simp only [List.map_cons, List.map_nil, List.cons_append, List.nil_append] at this
    rw [this]
    obtain ⟨c, cs, e⟩ := fieldName_ne ht
    subst e
    have : parse (written [((c :: cs) ++ '.' :: f, v)]) = some ⟨[(c :: cs) ++ '.' :: f], [v], []⟩ := by
      rw [written, parse.eq_def]
      simp [pathname, parse_nil, Ctx.addField]
    rw [this]
    rfl
  have hc : conditions [.scope scope] = some ⟨some scope, none, none⟩ := rfl
  have hq : replaceStmt db (.str (lower t)) (lower f) v ⟨some scope, none, none⟩ = replace db (.str (lower t)) scope (lower f) (v x0) := by
    simp only [replaceStmt, tableInfo_at h0, hx]
    rfl
  obtain ⟨h1, w', h2, h3, h4⟩ := C27_replace_partial h hp scope (lower f) (v x0)
  refine ⟨_, (replace db (.str (lower t)) scope (lower f) (v x0)).2, w', ?_, h2, h1, fun k x hk => ?_⟩
  · simp only [runReplace, hpn, hc, split_table ht hf, hq]
    rfl
  · rw [h4 k x hk, lower_lower']

example : FieldName "Orders".toList ∧ split "Orders.Price".toList = (.str "orders".toList, "price".toList) :=
  ⟨⟨by decide, by decide⟩, split_table (t := "Orders".toList) (f := "Price".toList) ⟨by decide, by decide⟩ ⟨by decide, by decide⟩⟩

end Props
