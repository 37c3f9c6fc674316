import Verif.Model.Names
import Verif.Spec.Memvar
import Verif.Props.Memvar
import Verif.Props.Array
import Verif.Props.ModuleNames
/-!
# Variables, fields and array elements in the generated code (C77-C80)
-/
namespace Props
open Model hiding State Err
open Py Spec
open Model.Names

namespace NameSpec

/-- The table in the selected work area. -/
def selected (σ : State) : Option (Database.WS Row) := (σ.db.areas[σ.db.current.toNat]?).join

/-- The runtime library is in working order: a work area is selected, a procedure is running, and
nothing has replaced its objects. -/
structure Working (σ : State) : Prop where
  area : 0 ≤ σ.db.current ∧ σ.db.current.toNat < σ.db.areas.length
  running : σ.mem.loc ≠ []
  db : σ.dbSlot = .intact
  memvar : σ.memvarSlot = .intact

/-- No open table answers to the name. -/
def NoAlias (σ : State) (k : Name) : Prop := ∀ w, some w ∈ σ.db.areas → w.isAlias k.toList = false

/-- The selected table has no such field. -/
def NoField (σ : State) (k : Name) : Prop := ∀ w, selected σ = some w → k ∉ σ.fields w.file

/-- Names in lower case other than those that the runtime library or Python use for themselves (`db`, `memvar`, names
like `__class__`), the one name that is changed, THIS and THISFORM, reserved words of Python, and names without letters. -/
def Ordinary (k : Name) : Prop :=
  k ≠ "db" ∧ k ≠ "memvar" ∧ k ≠ "class" ∧ k ≠ "this" ∧ k ≠ "thisform" ∧
  ¬ (['_', '_'] <+: k.toList ∧ ['_', '_'] <:+ k.toList) ∧ k.toList ∉ ModuleNameSpec.reserved ∧
  (∀ c ∈ k.toList, c.isLower = true ∨ c.isDigit = true ∨ c = '_') ∧ ∃ c ∈ k.toList, c.isLower = true

instance (k : Name) : Decidable (Ordinary k) := by unfold Ordinary; infer_instance

end NameSpec
open NameSpec

namespace NamesAux

theorem ident {k : Name} (h : k ≠ "class") : visitIdentifier k = k := by simp [visitIdentifier, h]

theorem lower_char {c : Char} (h : c.isLower = true ∨ c.isDigit = true ∨ c = '_') :
    c.toLower = c ∧ c.isUpper = false ∧ ModuleNames.isWord c = true := by
  have hu : c.isUpper = false := by
    rcases h with h | h | rfl
    · simp only [Char.isLower, Char.isUpper, Bool.and_eq_true, decide_eq_true_eq, ge_iff_le, UInt32.le_iff_toNat_le, Bool.and_eq_false_iff,
        decide_eq_false_iff_not] at h ⊢
      simp at h ⊢
      omega
    · simp only [Char.isDigit, Char.isUpper, Bool.and_eq_true, decide_eq_true_eq, ge_iff_le, UInt32.le_iff_toNat_le, Bool.and_eq_false_iff,
        decide_eq_false_iff_not] at h ⊢
      simp at h ⊢
      omega
    · decide
  refine ⟨?_, hu, ?_⟩
  · unfold Char.toLower
    unfold Char.isUpper at hu
    simp only [Bool.and_eq_false_iff, decide_eq_false_iff_not] at hu
    rw [dif_neg]
    rintro ⟨h1, h2⟩
    exact hu ⟨h1, h2⟩
  · unfold ModuleNames.isWord
    rcases h with h | h | rfl
    · simp [Char.isAlphanum, Char.isAlpha, h]
    · simp [Char.isAlphanum, h]
    · rfl

theorem ordinary_facts {k : Name} (h : Ordinary k) :
    k ≠ "" ∧ k ≠ "db" ∧ k ≠ "memvar" ∧ k ≠ "class" ∧ dunder k = false ∧ isVariable k = true := by
  obtain ⟨h1, h2, h3, h4, h5, h6, h7, h8, c, hc, hl⟩ := h
  have inj : ∀ t : String, k ≠ t → k.toList ≠ t.toList := fun t hne e => hne (String.ext e)
  have hlow : k.toList.map Char.toLower = k.toList := by
    conv => rhs; rw [← List.map_id k.toList]
    exact List.map_congr_left fun x hx => (lower_char (h8 x hx)).1
  have hne : k.toList ≠ [] := fun e => by rw [e] at hc; cases hc
  refine ⟨fun e => hne (by rw [e]; rfl), h1, h2, h3, ?_, ?_⟩
  · unfold dunder
    cases ha : ['_', '_'].isPrefixOf k.toList with
    | false => rfl
    | true =>
      cases hb : ['_', '_'].isPrefixOf k.toList.reverse with
      | false => rfl
      | true =>
        refine absurd ⟨List.isPrefixOf_iff_prefix.mp ha, ?_⟩ h6
        have := List.isPrefixOf_iff_prefix.mp hb
        rw [← List.reverse_suffix, List.reverse_reverse] at this
        exact this
  · unfold isVariable
    rw [decide_eq_true_eq]
    have hid : ModuleNames.identifier k.toList = k.toList := by
      unfold ModuleNames.identifier
      simp only [hlow]
      rw [if_neg (inj "class" h3)]
    have hlo : ModuleNames.islower k.toList = true := by
      unfold ModuleNames.islower
      rw [Bool.and_eq_true, List.any_eq_true]
      refine ⟨⟨c, hc, hl⟩, ?_⟩
      rw [Bool.not_eq_true', List.any_eq_false]
      intro x hx
      rw [(lower_char (h8 x hx)).2.1]
      simp
    have hv : ModuleNames.validIdentifier k.toList = true := by
      unfold ModuleNames.validIdentifier
      rw [Bool.and_eq_true, Bool.and_eq_true]
      refine ⟨⟨by simpa using hne, ?_⟩, ?_⟩
      · rw [List.all_eq_true]
        exact fun x hx => (lower_char (h8 x hx)).2.2
      · rw [ModuleNameAux.reserved_eq] at h7
        simpa using h7
    unfold ModuleNames.variable_
    rw [hid, if_pos hlo]
    unfold ModuleNames.scopeVal
    rw [if_neg (inj "this" h4), if_neg (inj "thisform" h5), if_pos hv]

theorem noAlias_info {σ : State} {k : Name} (hk : k ≠ "") (h : NoAlias σ k) :
    Database.tableInfo σ.db (.str k.toList) = .error .notOpen := by
  have hne : k.toList ≠ [] := fun e => hk (String.toList_eq_nil_iff.mp e)
  have hf : Database.findAlias σ.db.areas k.toList = none := by
    unfold Database.findAlias
    rw [List.findIdx?_eq_none_iff]
    intro o ho
    cases o with
    | none => rfl
    | some w => exact h w ho
  unfold Database.tableInfo Database.getWorkarea
  cases hl : k.toList with
  | nil => exact absurd hl hne
  | cons c t => rw [hl] at hf; simp [hf]

theorem selected_info {σ : State} (h : 0 ≤ σ.db.current ∧ σ.db.current.toNat < σ.db.areas.length) :
    Database.tableInfo σ.db .none = match selected σ with
      | some w => .ok w
      | none => .error .attributeError := by
  have hn : ¬ σ.db.current < 0 := by omega
  simp only [Database.tableInfo, Database.getWorkarea, index, hn, if_false, selected]
  rw [List.getElem?_eq_getElem h.2]
  cases σ.db.areas[σ.db.current.toNat] <;> rfl

theorem lookup_plain {σ : State} {k : Name} (hw : Working σ) (hk : k ≠ "") (ha : NoAlias σ k) (hf : NoField σ k) :
    lookup σ k = memGet σ.mem k := by
  unfold lookup
  rw [noAlias_info hk ha]
  simp only [fieldOrVariable, selected_info hw.area]
  cases hs : selected σ with
  | none => rfl
  | some w => simp [hf w hs]

theorem readVar_lookup {σ : State} {k : Name} (hw : Working σ) (ho : Ordinary k) : readVar σ k = lookup σ k := by
  obtain ⟨_, h1, h2, h3, h4, h5⟩ := ordinary_facts ho
  simp only [readVar, ident h3, getAttr, h1, h2, h4, h5, if_false, if_true, Bool.false_eq_true, getItem, hw.db, hw.memvar]

theorem memGet_visible {m : Mem} {k : Name} (hl : m.loc ≠ []) :
    memGet m k = match visible m k with
      | some v => .ok (.value v)
      | none => .error .nameError := by
  unfold memGet
  rw [C03_read m k hl]
  cases visible m k <;> rfl

theorem assignVar_set {σ : State} {k : Name} (v : Val) (hw : Working σ) (ho : Ordinary k) :
    assignVar σ k v = match σ.mem.setItem k v with
      | .ok m => .ok { σ with mem := m }
      | .error _ => .error .indexError := by
  obtain ⟨_, h1, h2, h3, _, h5⟩ := ordinary_facts ho
  simp only [assignVar, ident h3, setAttr, h1, h2, h5, if_false, if_true, setItem, hw.memvar]
  rfl

theorem setItem_running {m m' : Mem} {k : Name} {v : Val} (hl : m.loc ≠ []) (h : m.setItem k v = .ok m') : m'.loc ≠ [] := by
  obtain ⟨pub, loc⟩ := m
  cases loc with
  | nil => exact absurd rfl hl
  | cons f r =>
    rw [Mem.setItem_cons] at h
    split at h
    · injection h with h; subst h; simp
    · cases hs : Mem.setPub pub k v with
      | error e => simp [hs, Except.map] at h
      | ok p => simp only [hs, Except.map] at h; injection h with h; subst h; simp

theorem assignVar_ok {σ σ' : State} {k : Name} {v : Val} (hw : Working σ) (ho : Ordinary k) (h : assignVar σ k v = .ok σ') :
    ∃ m, σ.mem.setItem k v = .ok m ∧ σ' = { σ with mem := m } ∧ Working σ' := by
  rw [assignVar_set v hw ho] at h
  split at h
  · rename_i m hm
    injection h with h
    subst h
    exact ⟨m, hm, rfl, hw.area, setItem_running hw.running hm, hw.db, hw.memvar⟩
  · cases h

end NamesAux
open NamesAux

/-! ## C78: what a name means -/

/-- **C78** for a name that no open table answers to: a field of the selected table comes first. -/
theorem C78_field_partial (σ : State) (k : Name) (hw : Working σ) (ho : Ordinary k) (ha : NoAlias σ k)
    (w : Database.WS Row) (hs : selected σ = some w) (hf : k ∈ σ.fields w.file)
    (r : Row) (hr : w.record = some r) (v : Val) (hv : Dict.get r k = some v) :
    readVar σ k = .ok (.value v) := by
  rw [readVar_lookup hw ho, lookup, noAlias_info (ordinary_facts ho).1 ha]
  simp [fieldOrVariable, selected_info hw.area, hs, hf, hr, hv]

/-- **C78** for a name that no open table answers to: when the selected table has no such field, the
name is that of the visible variable. -/
theorem C78_variable_partial (σ : State) (k : Name) (hw : Working σ) (ho : Ordinary k) (ha : NoAlias σ k)
    (hf : NoField σ k) :
    readVar σ k = match visible σ.mem k with
      | some v => .ok (.value v)
      | none => .error .nameError := by
  rw [readVar_lookup hw ho, lookup_plain hw (ordinary_facts ho).1 ha hf, memGet_visible hw.running]

/-- A table with one record in work area 1, and variables. -/
def exNames : State :=
  { mem := ⟨[[("price", .num 7), ("total", .num 9)]], [[]]⟩
    arrays := []
    db := ⟨[none, some ⟨"items".toList, "items.dbf".toList, [[("price", .num 3)]], 0, none, false⟩], 1⟩
    fields := fun _ => ["price"]
    functions := []
    memvarSlot := .intact
    dbSlot := .intact }

example : Working exNames ∧ Ordinary "price" ∧ NoAlias exNames "price" ∧ ¬ NoField exNames "price" ∧
    Ordinary "total" ∧ NoAlias exNames "total" ∧ NoField exNames "total" ∧
    readVar exNames "price" = .ok (.value (.num 3)) ∧ readVar exNames "total" = .ok (.value (.num 9)) := by
  refine ⟨⟨by decide, by decide, rfl, rfl⟩, by decide +kernel, ?_, ?_, by decide +kernel, ?_, ?_, by decide +kernel, by decide +kernel⟩
  · intro w hw
    simp only [exNames, List.mem_cons, reduceCtorEq, Option.some.injEq, false_or, List.not_mem_nil, or_false] at hw
    subst hw; decide +kernel
  · intro h
    have : selected exNames = some ⟨"items".toList, "items.dbf".toList, [[("price", .num 3)]], 0, none, false⟩ := rfl
    exact h _ this (by decide +kernel)
  · intro w hw
    simp only [exNames, List.mem_cons, reduceCtorEq, Option.some.injEq, false_or, List.not_mem_nil, or_false] at hw
    subst hw; decide +kernel
  · intro w hw
    have : selected exNames = some ⟨"items".toList, "items.dbf".toList, [[("price", .num 3)]], 0, none, false⟩ := rfl
    rw [this] at hw
    injection hw with hw
    subst hw; decide +kernel

/-- **C78** fails for the name of an open table: it never means the variable or field of that name,
but the current record of the table. -/
theorem C78_alias_fails (σ : State) (k : Name) (hw : Working σ) (ho : Ordinary k) (i : Nat) (w : Database.WS Row)
    (hi : Database.findAlias σ.db.areas k.toList = some i) (hw' : σ.db.areas[i]? = some (some w)) :
    readVar σ k = .ok (.record w.record) := by
  rw [readVar_lookup hw ho, lookup]
  have hne : k.toList ≠ [] := fun e => (ordinary_facts ho).1 (String.toList_eq_nil_iff.mp e)
  have : Database.tableInfo σ.db (.str k.toList) = .ok w := by
    unfold Database.tableInfo Database.getWorkarea
    cases hl : k.toList with
    | nil => exact absurd hl hne
    | cons c t =>
      rw [hl] at hi
      have hn : ¬ ((i : Int) < 0) := by omega
      simp [hi, index, hn, hw']
  rw [this]

/-- The variable `items` while the table ITEMS is open. -/
def exAlias : State := { exNames with mem := ⟨[[("items", .num 5)]], [[]]⟩ }

example : visible exAlias.mem "items" = some (.num 5) ∧ NoField exAlias "items" ∧
    readVar exAlias "items" = .ok (.record (some [("price", .num 3)])) := by
  refine ⟨by decide +kernel, ?_, by decide +kernel⟩
  intro w hw
  have : selected exAlias = some ⟨"items".toList, "items.dbf".toList, [[("price", .num 3)]], 0, none, false⟩ := rfl
  rw [this] at hw
  injection hw with hw
  subst hw; decide +kernel

/-- **C78** fails for `m.name`: without a variable, field or table called M it is an error, whatever
variables there are. -/
theorem C78_memvar_fails (σ : State) (x : Name) (hw : Working σ) (ha : NoAlias σ "m") (hf : NoField σ "m")
    (hm : visible σ.mem "m" = none) :
    readMemvar σ x = .error .nameError := by
  have ho : Ordinary "m" := by decide +kernel
  unfold readMemvar
  rw [C78_variable_partial σ "m" hw ho ha hf, hm]

/-- No table open, and the variable `price`. -/
def exEmpty : State := { exNames with db := ⟨[none, none], 1⟩ }

theorem exEmpty_noAlias (k : Name) : NoAlias exEmpty k := by intro w hw; simp [exEmpty] at hw
theorem exEmpty_noField (k : Name) : NoField exEmpty k := by
  intro w hw
  have : selected exEmpty = none := rfl
  rw [this] at hw; cases hw
theorem exEmpty_working : Working exEmpty := ⟨by decide, by decide, rfl, rfl⟩

example : visible exEmpty.mem "m" = none ∧ visible exEmpty.mem "price" = some (.num 7) ∧
    readMemvar exEmpty "price" = .error .nameError := by decide +kernel

/-- **C78** fails for `m.name` when a table called M is open: it is a field of that table, or an error, whatever variables there
are. -/
theorem C78_m_table_fails (σ : State) (x : Name) (hw : Working σ) (i : Nat) (w : Database.WS Row)
    (hi : Database.findAlias σ.db.areas "m".toList = some i) (hw' : σ.db.areas[i]? = some (some w)) :
    (∀ r v, w.record = some r → Dict.get r x = some v → readMemvar σ x = .ok (.value v)) ∧
    ((∀ r, w.record = some r → Dict.get r x = none) → readMemvar σ x = .error .attributeError) := by
  have ho : Ordinary "m" := by decide +kernel
  unfold readMemvar
  rw [C78_alias_fails σ "m" hw ho i w hi hw']
  constructor
  · intro r v hr hv
    simp [hr, hv]
  · intro h
    cases hr : w.record with
    | none => rfl
    | some r => simp [h r hr]

/-- The variable `price` and a table called M that has another field. -/
def exTableM : State :=
  { exNames with db := ⟨[none, some ⟨"m".toList, "m.dbf".toList, [[("name", .num 3)]], 0, none, false⟩], 1⟩ }

example : readMemvar exTableM "price" = .error .attributeError ∧ visible exTableM.mem "price" = some (.num 7) ∧
    readMemvar exTableM "name" = .ok (.value (.num 3)) := by decide +kernel

/-! ## C80: variables are independent of each other -/

/-- **C80** for ordinary names: a variable that has been assigned reads back the value, unless an
open table provides the name. -/
theorem C80_reads_back_partial (σ σ' : State) (k : Name) (v : Val) (hw : Working σ) (ho : Ordinary k)
    (ha : NoAlias σ k) (hf : NoField σ k) (h : assignVar σ k v = .ok σ') :
    readVar σ' k = .ok (.value v) := by
  obtain ⟨m, hm, rfl, hw'⟩ := assignVar_ok hw ho h
  rw [C78_variable_partial { σ with mem := m } k hw' ho ha hf, (C03_assign σ.mem m k v hw.running hm).1]

/-- **C80** for ordinary names: the assignment leaves every other name as it was. -/
theorem C80_others_partial (σ σ' : State) (k : Name) (v : Val) (hw : Working σ) (ho : Ordinary k)
    (h : assignVar σ k v = .ok σ') (k' : Name) (hk : visitIdentifier k' ≠ k) :
    readVar σ' k' = readVar σ k' := by
  obtain ⟨m, hm, rfl, hw'⟩ := assignVar_ok hw ho h
  have hv : ∀ x, x ≠ k → memGet m x = memGet σ.mem x := by
    intro x hx
    rw [memGet_visible (setItem_running hw.running hm), memGet_visible hw.running, (C03_assign σ.mem m k v hw.running hm).2 x hx]
  have hl : ∀ x, x ≠ k → lookup { σ with mem := m } x = lookup σ x := by
    intro x hx
    simp only [lookup, fieldOrVariable, hv x hx]
  have hg : getItem { σ with mem := m } (visitIdentifier k') = getItem σ (visitIdentifier k') := by
    simp only [getItem, hl _ hk]
  simp only [readVar, getAttr, hg]

example : Working exEmpty ∧ Ordinary "x" ∧ NoAlias exEmpty "x" ∧ NoField exEmpty "x" ∧
    (∃ σ', assignVar exEmpty "x" (.num 1) = .ok σ') ∧ visitIdentifier "price" ≠ "x" :=
  ⟨exEmpty_working, by decide +kernel, exEmpty_noAlias _, exEmpty_noField _, ⟨_, rfl⟩, by decide +kernel⟩

/-- **C80** fails: CLASS and CLASSTYPE are one variable; what is assigned to the one is read from the other. -/
theorem C80_class_fails (σ σ' : State) (v : Val) (hw : Working σ) (ha : NoAlias σ "classtype") (hf : NoField σ "classtype")
    (h : assignVar σ "classtype" v = .ok σ') :
    readVar σ' "class" = .ok (.value v) ∧ assignVar σ "class" v = .ok σ' := by
  have hr := C80_reads_back_partial σ σ' "classtype" v hw (by decide +kernel) ha hf h
  have hi : visitIdentifier "class" = visitIdentifier "classtype" := by decide +kernel
  constructor
  · rw [← hr]
    simp only [readVar, hi]
  · rw [← h]
    simp only [assignVar, hi]

example : Working exEmpty ∧ NoAlias exEmpty "classtype" ∧ NoField exEmpty "classtype" ∧
    (∃ σ', assignVar exEmpty "classtype" (.num 1) = .ok σ') ∧ readVar exEmpty "class" = .error .nameError :=
  ⟨exEmpty_working, exEmpty_noAlias _, exEmpty_noField _, ⟨_, rfl⟩, by decide +kernel⟩

/-- **C80** fails: a variable called DB or MEMVAR that is declared and has a value is not found; reading it gives an object of the
library. -/
theorem C80_internal_fails (σ : State) (v : Val) :
    (σ.dbSlot = .intact → visible σ.mem "db" = some v → readVar σ "db" = .ok .internal) ∧
    (σ.memvarSlot = .intact → visible σ.mem "memvar" = some v → readVar σ "memvar" = .ok .internal) := by
  have d1 : visitIdentifier "db" = "db" := by decide +kernel
  have d2 : visitIdentifier "memvar" = "memvar" := by decide +kernel
  have v1 : isVariable "db" = true := by decide +kernel
  have v2 : isVariable "memvar" = true := by decide +kernel
  have n1 : dunder "db" = false := by decide +kernel
  have n2 : dunder "memvar" = false := by decide +kernel
  constructor
  · intro h _
    simp [readVar, getAttr, d1, v1, n1, h]
  · intro h _
    simp [readVar, getAttr, d2, v2, n2, h]

/-- PUBLIC db, memvar -/
example : visible { exNames with mem := ⟨[[("db", .num 7), ("memvar", .num 9)]], [[]]⟩ : State }.mem "db" = some (.num 7) ∧
    readVar { exNames with mem := ⟨[[("db", .num 7), ("memvar", .num 9)]], [[]]⟩ } "memvar" = .ok .internal := by decide +kernel

/-- **C80** fails: after an assignment to a variable called DB no other variable can be read. -/
theorem C80_db_fails (σ : State) (v : Val) :
    ∃ σ', assignVar σ "db" v = .ok σ' ∧ ∀ k, Ordinary k → readVar σ' k = .error .attributeError := by
  refine ⟨{ σ with dbSlot := .replaced v }, ?_, fun k ho => ?_⟩
  · have : isVariable "db" = true := by decide +kernel
    simp [assignVar, visitIdentifier, this, setAttr]
  · obtain ⟨_, h1, h2, h3, h4, h5⟩ := ordinary_facts ho
    simp only [readVar, ident h3, getAttr, h1, h2, h4, h5, if_false, if_true, Bool.false_eq_true, getItem]

/-- **C80** fails: after an assignment to a variable called MEMVAR no variable can be assigned. -/
theorem C80_memvar_fails (σ : State) (v : Val) :
    ∃ σ', assignVar σ "memvar" v = .ok σ' ∧ ∀ k v', Ordinary k → assignVar σ' k v' = .error .typeError := by
  refine ⟨{ σ with memvarSlot := .replaced v }, ?_, fun k v' ho => ?_⟩
  · have : isVariable "memvar" = true := by decide +kernel
    simp [assignVar, visitIdentifier, this, setAttr]
  · obtain ⟨_, h1, h2, h3, _, h5⟩ := ordinary_facts ho
    simp only [assignVar, ident h3, setAttr, h1, h2, h5, if_false, if_true, setItem]

example : Ordinary "price" := by decide +kernel

/-! ## C77: elements of arrays -/

namespace NamesAux

/-- The levels that have a variable of that name. -/
def levels (pub : List Frame) (k : Name) : List Frame := pub.filter fun f => f.has k

theorem find_unique {pub : List Frame} {k : Name} {f : Frame} {r : Nat} (h : levels pub k = [f]) (hr : f.get k = some (.arr r)) :
    findArray pub k = some r ∧ pub.findSome? (fun f => f.get k) = some (.arr r) := by
  have hmem : ∀ g ∈ pub, g.has k = true → g = f := by
    intro g hg hk
    have : g ∈ levels pub k := List.mem_filter.mpr ⟨hg, hk⟩
    rw [h] at this; simpa using this
  have hfp : f ∈ pub := by
    have : f ∈ levels pub k := by rw [h]; simp
    exact (List.mem_filter.mp this).1
  constructor
  · unfold findArray
    cases hs : pub.reverse.findSome? (fun f => match f.get k with | some (.arr r) => some r | _ => none) with
    | none =>
      rw [List.findSome?_eq_none_iff] at hs
      have := hs f (List.mem_reverse.mpr hfp)
      rw [hr] at this; cases this
    | some r' =>
      obtain ⟨g, hg, e⟩ := List.exists_of_findSome?_eq_some hs
      have hk : g.has k = true := by
        unfold Dict.has
        cases hg : g.get k with
        | none => rw [hg] at e; cases e
        | some v => rfl
      rw [hmem g (List.mem_reverse.mp hg) hk, hr] at e
      simpa using e.symm
  · cases hs : pub.findSome? (fun f => f.get k) with
    | none =>
      rw [List.findSome?_eq_none_iff] at hs
      rw [hs f hfp] at hr; cases hr
    | some v =>
      obtain ⟨g, hg, e⟩ := List.exists_of_findSome?_eq_some hs
      have hk : g.has k = true := by simp [Dict.has, e]
      rw [hmem g hg hk, hr] at e
      exact e.symm

end NamesAux

/-- The attributes of the object that finds functions. -/
def finderAttributes : List Name := ["modules", "dlls", "set_procedure", "release_procedure", "dll_declare", "dll_clear"]

theorem NamesAux.finderAttributes_eq : finderAttributes = functionAttrs := rfl

/-- The array that a name denotes in the whole program: exactly one level of public and private
variables has the name, the running procedure has no local of that name, and there is no
function of that name. -/
structure TheArray (σ : State) (k : Name) (r : Nat) (a : Arr Val) : Prop where
  level : ∃ f, levels σ.mem.pub k = [f] ∧ f.get k = some (.arr r)
  noLocal : (σ.mem.loc.head?.bind fun f => f.get k) = none
  noFunction : k ∉ σ.functions ∧ k ∉ finderAttributes
  object : σ.arrays[r]? = some a

/-- **C77** for a public or private array whose name is used once: an element that has been assigned
reads back the value, and the other elements are unchanged. -/
theorem C77_element_partial (σ : State) (k : Name) (r : Nat) (a : Arr Val) (rows cols : Nat) (hw : Working σ)
    (ho : Ordinary k) (ha : NoAlias σ k) (hf : NoField σ k) (harr : TheArray σ k r a) (h2 : Is2D a rows cols)
    (i j : Int) (hi : 1 ≤ i ∧ i ≤ rows) (hj : 1 ≤ j ∧ j ≤ cols) (v : Val) :
    ∃ σ', assignElement σ k i j v = .ok σ' ∧ readElement σ' k i j = .ok (some v) ∧
      ∀ i' j' : Int, (1 ≤ i' ∧ i' ≤ rows) → (1 ≤ j' ∧ j' ≤ cols) → (i', j') ≠ (i, j) →
        readElement σ' k i' j' = readElement σ k i' j' := by
  obtain ⟨f, hlev, hget⟩ := harr.level
  obtain ⟨hfind, hvis⟩ := find_unique hlev hget
  have hvisible : visible σ.mem k = some (.arr r) := by
    unfold visible; rw [harr.noLocal]; exact hvis
  have hread : readVar σ k = .ok (.value (.arr r)) := by
    rw [C78_variable_partial σ k hw ho ha hf, hvisible]
  obtain ⟨a', hset, _, hgot, _, hothers⟩ := C09_store a rows cols h2 i j hi hj v
  have hlen : r < σ.arrays.length := by
    have := harr.object
    rcases Nat.lt_or_ge r σ.arrays.length with h | h
    · exact h
    · rw [List.getElem?_eq_none h] at this; cases this
  have hid := ident (ordinary_facts ho).2.2.2.1
  have hno : k ∉ functionAttrs := harr.noFunction.2
  refine ⟨{ σ with arrays := σ.arrays.set r a' }, by simp [assignElement, hread, harr.object, hset], ?_, ?_⟩
  · simp [readElement, hid, harr.noFunction.1, hno, hfind, hlen, hgot]
  · intro i' j' hi' hj' hne
    have hobj : σ.arrays[r] = a := by
      have := harr.object
      rw [List.getElem?_eq_getElem hlen] at this
      exact Option.some.inj this
    simp [readElement, hid, harr.noFunction.1, hno, hfind, hlen, hobj, hothers i' j' hi' hj' hne]

/-- `PUBLIC ARRAY a[2, 3]`. -/
def exArray : State := { exEmpty with mem := ⟨[[], [("a", .arr 0)]], [[], []]⟩, arrays := [Arr.init (.bool false) 2 3] }

example : TheArray exArray "a" 0 (Arr.init (.bool false) 2 3) ∧ Is2D (Arr.init (Val.bool false) 2 3) 2 3 ∧ Working exArray ∧
    Ordinary "a" ∧ NoAlias exArray "a" ∧ NoField exArray "a" :=
  ⟨⟨⟨[("a", .arr 0)], by decide +kernel, by decide +kernel⟩, by decide +kernel, by decide +kernel, rfl⟩,
   Is2D_init _ 2 3 (by omega), ⟨by decide, by decide, rfl, rfl⟩, by decide +kernel, exEmpty_noAlias _, exEmpty_noField _⟩

/-- **C77** fails for every local array: its elements can be assigned, but not read. -/
theorem C77_local_fails (σ : State) (k : Name) (h3 : k ≠ "class") (hfun : k ∉ σ.functions ∧ k ∉ finderAttributes)
    (hpub : levels σ.mem.pub k = []) (i j : Int) :
    readElement σ k i j = .error .notAProcedure := by
  have : findArray σ.mem.pub k = none := by
    unfold findArray
    rw [List.findSome?_eq_none_iff]
    intro f hf
    have : f.has k = false := by
      cases hh : f.has k with
      | false => rfl
      | true =>
        have : f ∈ levels σ.mem.pub k := List.mem_filter.mpr ⟨List.mem_reverse.mp hf, hh⟩
        rw [hpub] at this; cases this
    have hn : f.get k = none := by simpa [Dict.has] using this
    rw [hn]
  have hno : k ∉ functionAttrs := hfun.2
  simp [readElement, ident h3, hfun.1, hno, this]

/-- `LOCAL ARRAY a[2, 3]`, `a[1, 2] = 5`. -/
def exLocal : State := { exEmpty with mem := ⟨[[]], [[("a", .arr 0)]]⟩, arrays := [Arr.init (.bool false) 2 3] }

example : levels exLocal.mem.pub "a" = [] ∧ ("a" ∉ exLocal.functions ∧ "a" ∉ finderAttributes) ∧
    visible exLocal.mem "a" = some (.arr 0) ∧ (∃ σ', assignElement exLocal "a" 1 2 (.num 5) = .ok σ') :=
  ⟨by decide +kernel, by decide +kernel, by decide +kernel, ⟨_, rfl⟩⟩

/-- **C77** fails for every array with the name of a function of the program (or of a file of procedures): its elements
can be assigned, but `k(i, j)` and `k[i, j]` call the function instead of reading them. -/
theorem C77_function_fails (σ : State) (k : Name) (r : Nat) (a : Arr Val) (rows cols : Nat) (hw : Working σ)
    (ho : Ordinary k) (ha : NoAlias σ k) (hf : NoField σ k) (hfun : k ∈ σ.functions ∧ k ∉ finderAttributes)
    (hvis : visible σ.mem k = some (.arr r)) (harr : σ.arrays[r]? = some a) (h2 : Is2D a rows cols)
    (i j : Int) (hi : 1 ≤ i ∧ i ≤ rows) (hj : 1 ≤ j ∧ j ≤ cols) (v : Val) :
    ∃ σ', assignElement σ k i j v = .ok σ' ∧ ∀ i' j' : Int, readElement σ' k i' j' = .ok none := by
  have hread : readVar σ k = .ok (.value (.arr r)) := by
    rw [C78_variable_partial σ k hw ho ha hf, hvis]
  obtain ⟨a', hset, _⟩ := C09_store a rows cols h2 i j hi hj v
  have hid := ident (ordinary_facts ho).2.2.2.1
  have hno : k ∉ functionAttrs := hfun.2
  exact ⟨{ σ with arrays := σ.arrays.set r a' }, by simp [assignElement, hread, harr, hset],
    fun i' j' => by simp [readElement, hid, hno, hfun.1]⟩

/-- `PUBLIC ARRAY a[2, 3]` in a program with a function `a`. -/
def exFunction : State := { exArray with functions := ["a"] }

example : ∃ σ', assignElement exFunction "a" 1 2 (.num 5) = .ok σ' ∧ readElement σ' "a" 1 2 = .ok none := by
  obtain ⟨σ', h1, h2⟩ := C77_function_fails exFunction "a" 0 (Arr.init (.bool false) 2 3) 2 3 ⟨by decide, by decide, rfl, rfl⟩
    (by decide +kernel) (exEmpty_noAlias _) (exEmpty_noField _) (by decide +kernel) (by decide +kernel) rfl
    (Is2D_init _ 2 3 (by omega)) 1 2 ⟨by decide, by decide⟩ ⟨by decide, by decide⟩ (.num 5)
  exact ⟨σ', h1, h2 1 2⟩

/-- **C77** fails for an array that hides another one: elements are assigned in the array that is visible and read from the
one of the outermost level, so that reading an element gives the same before and after it is assigned. -/
theorem C77_hidden_fails (σ : State) (k : Name) (r r0 : Nat) (a : Arr Val) (rows cols : Nat) (hw : Working σ)
    (ho : Ordinary k) (ha : NoAlias σ k) (hf : NoField σ k) (hfun : k ∉ σ.functions ∧ k ∉ finderAttributes)
    (hvis : visible σ.mem k = some (.arr r)) (inner rest : List Frame) (outer : Frame) (hpub : σ.mem.pub = inner ++ outer :: rest)
    (hout : outer.get k = some (.arr r0)) (hrest : levels rest k = []) (hne : r ≠ r0)
    (harr : σ.arrays[r]? = some a) (h2 : Is2D a rows cols) (i j : Int) (hi : 1 ≤ i ∧ i ≤ rows) (hj : 1 ≤ j ∧ j ≤ cols) (v : Val) :
    ∃ σ', assignElement σ k i j v = .ok σ' ∧ ∀ i' j' : Int, readElement σ' k i' j' = readElement σ k i' j' := by
  have hread : readVar σ k = .ok (.value (.arr r)) := by
    rw [C78_variable_partial σ k hw ho ha hf, hvis]
  obtain ⟨a', hset, _⟩ := C09_store a rows cols h2 i j hi hj v
  have hid := ident (ordinary_facts ho).2.2.2.1
  have hno : k ∉ functionAttrs := hfun.2
  have hfind : findArray σ.mem.pub k = some r0 := by
    have hn : findArray rest k = none := by
      unfold findArray
      rw [List.findSome?_eq_none_iff]
      intro f hf
      have : f.has k = false := by
        cases hh : f.has k with
        | false => rfl
        | true =>
          have : f ∈ levels rest k := List.mem_filter.mpr ⟨List.mem_reverse.mp hf, hh⟩
          rw [hrest] at this; cases this
      have hn : f.get k = none := by simpa [Dict.has] using this
      rw [hn]
    unfold findArray at hn ⊢
    rw [hpub, List.reverse_append, List.reverse_cons, List.append_assoc, List.findSome?_append, hn, Option.none_or]
    simp [hout]
  refine ⟨{ σ with arrays := σ.arrays.set r a' }, by simp [assignElement, hread, harr, hset], fun i' j' => ?_⟩
  have hget : (σ.arrays.set r a')[r0]? = σ.arrays[r0]? := by rw [List.getElem?_set_ne hne]
  simp only [readElement, hid, hfind, hget]

/-- A private array hides a public one. -/
def exHidden : State :=
  { exEmpty with mem := ⟨[[("a", .arr 1)], [("a", .arr 0)]], [[], []]⟩, arrays := [Arr.init (.bool false) 2 3, Arr.init (.bool false) 2 3] }

example : ∃ σ', assignElement exHidden "a" 1 2 (.num 5) = .ok σ' ∧ readElement σ' "a" 1 2 = .ok (some (.bool false)) := by
  obtain ⟨σ', h1, h2⟩ := C77_hidden_fails exHidden "a" 1 0 (Arr.init (.bool false) 2 3) 2 3 ⟨by decide, by decide, rfl, rfl⟩ (by decide +kernel)
    (exEmpty_noAlias _) (exEmpty_noField _) (by decide +kernel) (by decide +kernel) [[("a", .arr 1)]] [] [("a", .arr 0)] rfl
    (by decide +kernel) rfl (by decide) rfl (Is2D_init _ 2 3 (by omega)) 1 2 ⟨by decide, by decide⟩ ⟨by decide, by decide⟩ (.num 5)
  exact ⟨σ', h1, (h2 1 2).trans (by decide +kernel)⟩

/-! ## C79: declarations -/

namespace NamesAux

/-- The dictionary that a kind of declaration changes. -/
def level (s : Mem.ScopeKind) (m : Mem) : Option Frame :=
  match s with
  | .loc => m.loc.head?
  | .priv => m.pub.head?
  | .pub => m.pub.getLast?

/-- What a declaration makes of a name: a variable, or an array with the given dimensions. -/
def declaredAs (array : Bool) (i : Item) : Option (Int × Int) :=
  match i.dims with
  | some d => some d
  | none => if array then some (1, 0) else none

theorem addNames_get (names : List Name) (f : Frame) (k : Name) :
    (names.foldl (fun acc n => acc.set n (.bool false)) f).get k = if k ∈ names then some (.bool false) else f.get k := by
  induction names generalizing f with
  | nil => simp
  | cons n t ih =>
    rw [List.foldl_cons, ih, Dict.get_set]
    by_cases h : k = n <;> by_cases h' : k ∈ t <;> simp [h, h']

theorem addKw_get (kw : List (Name × Val)) (f : Frame) (k : Name) (hn : (kw.map Prod.fst).Nodup) :
    (kw.foldl (fun acc p => acc.set p.1 p.2) f).get k = ((kw.find? (·.1 = k)).map Prod.snd).or (f.get k) := by
  induction kw generalizing f with
  | nil => simp
  | cons p t ih =>
    simp only [List.map_cons, List.nodup_cons] at hn
    rw [List.foldl_cons, ih _ hn.2, Dict.get_set, List.find?_cons]
    by_cases h : p.1 = k
    · have : t.find? (·.1 = k) = none := by
        rw [List.find?_eq_none]
        intro q hq e
        exact hn.1 (by rw [h, ← of_decide_eq_true e]; exact List.mem_map_of_mem hq)
      simp [h, this]
    · rw [if_neg fun e => h (Eq.symm e)]; simp [h]

theorem allocate_fst (L : List (Name × (Int × Int))) (heap : List (Arr Val)) :
    (allocate heap L).1 = heap ++ L.map (fun p => Arr.init (.bool false) p.2.1 p.2.2) ∧
    (allocate heap L).2.map Prod.fst = L.map Prod.fst := by
  induction L generalizing heap with
  | nil => simp [allocate]
  | cons p t ih =>
    obtain ⟨x, d⟩ := p
    obtain ⟨h1, h2⟩ := ih (heap ++ [Arr.init (.bool false) d.1 d.2])
    simp only [allocate, List.map_cons]
    exact ⟨by rw [h1]; simp, by rw [h2]⟩

theorem allocate_find (L : List (Name × (Int × Int))) (heap : List (Arr Val)) (k : Name) :
    match L.find? (·.1 = k) with
    | some p => ∃ r, (allocate heap L).2.find? (·.1 = k) = some (k, .arr r) ∧ heap.length ≤ r ∧
        (allocate heap L).1[r]? = some (Arr.init (.bool false) p.2.1 p.2.2)
    | none => (allocate heap L).2.find? (·.1 = k) = none := by
  induction L generalizing heap with
  | nil => simp [allocate]
  | cons p t ih =>
    obtain ⟨x, d⟩ := p
    have ih := ih (heap ++ [Arr.init (.bool false) d.1 d.2])
    have h1 := (allocate_fst t (heap ++ [Arr.init (.bool false) d.1 d.2])).1
    simp only [allocate, List.find?_cons]
    by_cases h : x = k
    · subst h
      simp only [decide_true]
      exact ⟨heap.length, rfl, Nat.le_refl _, by rw [h1]; simp⟩
    · simp only [h, decide_false]
      cases hf : t.find? (·.1 = k) with
      | none => rw [hf] at ih; exact ih
      | some p =>
        rw [hf] at ih
        obtain ⟨r, e1, e2, e3⟩ := ih
        exact ⟨r, e1, by simp at e2; omega, e3⟩

theorem add_level {m : Mem} {s : Mem.ScopeKind} {names : List Name} {kw : List (Name × Val)} {f : Frame}
    (h : level s m = some f) :
    ∃ m', m.add s names kw = .ok m' ∧ level s m' = some (Mem.addToScope f names kw) ∧
      m'.pub.length = m.pub.length ∧ m'.loc.length = m.loc.length := by
  obtain ⟨pub, loc⟩ := m
  cases s with
  | loc =>
    cases loc with
    | nil => simp [level] at h
    | cons g t =>
      simp only [level, List.head?_cons, Option.some.injEq] at h
      subst h
      exact ⟨_, rfl, rfl, rfl, rfl⟩
  | priv =>
    cases pub with
    | nil => simp [level] at h
    | cons g t =>
      simp only [level, List.head?_cons, Option.some.injEq] at h
      subst h
      exact ⟨_, rfl, rfl, rfl, rfl⟩
  | pub =>
    cases pub with
    | nil => simp [level] at h
    | cons g t =>
      refine ⟨_, rfl, ?_, by simp, rfl⟩
      simp only [level] at h ⊢
      rw [List.getLast?_eq_getElem?] at h ⊢
      simp only [List.length_modify, List.length_cons, Nat.add_sub_cancel] at h ⊢
      rw [List.getElem?_modify, h]
      simp

end NamesAux

/-- **C79** for LOCAL, PRIVATE and PUBLIC: every name becomes a variable of that level, with the value
`.F.` or, with dimensions, a new array of these dimensions whose elements are `.F.`; other names
of the level and the existing arrays are unchanged. -/
theorem C79_scoped (σ : State) (s : Mem.ScopeKind) (array : Bool) (items : List Item) (f : Frame)
    (hl : level s σ.mem = some f) (hn : (items.map Item.name).Nodup) :
    ∃ σ' f', runDeclaration σ (visitDeclaration (.scoped s) array items) = .ok σ' ∧ level s σ'.mem = some f' ∧
      (∀ i ∈ items,
        match declaredAs array i with
        | none => f'.get i.name = some (.bool false)
        | some d => ∃ r, f'.get i.name = some (.arr r) ∧ σ.arrays.length ≤ r ∧
            σ'.arrays[r]? = some (Arr.init (.bool false) d.1 d.2)) ∧
      (∀ k, k ∉ items.map Item.name → f'.get k = f.get k) ∧
      ∀ r < σ.arrays.length, σ'.arrays[r]? = σ.arrays[r]? := by
  obtain ⟨items', hitems'⟩ : ∃ items' : List Item,
      items' = if array then items.map fun i => { i with dims := some (i.dims.getD (1, 0)) } else items := ⟨_, rfl⟩
  have hcode : visitDeclaration (.scoped s) array items = .add s (plainOf items') (arraysOf items') := by
    simp [visitDeclaration, hitems']
  have hdim : ∀ i ∈ items, ∃ i' ∈ items', i'.name = i.name ∧ i'.dims = declaredAs array i := by
    intro i hi
    cases array with
    | false => exact ⟨i, by simpa [hitems'] using hi, rfl, by simp [declaredAs]; cases i.dims <;> rfl⟩
    | true =>
      refine ⟨{ i with dims := some (i.dims.getD (1, 0)) }, ?_, rfl, ?_⟩
      · rw [hitems']; exact List.mem_map_of_mem (f := fun i : Item => { i with dims := some (i.dims.getD (1, 0)) }) hi
      · simp [declaredAs]; cases i.dims <;> rfl
  have hnames : items'.map Item.name = items.map Item.name := by
    rw [hitems']; split
    · rw [List.map_map]; rfl
    · rfl
  have hn' : (items'.map Item.name).Nodup := by rw [hnames]; exact hn
  -- what the two lists contain
  have hfind : ∀ (L : List Item), (L.map Item.name).Nodup → ∀ i ∈ L, ∀ d, i.dims = some d →
      (arraysOf L).find? (·.1 = i.name) = some (i.name, d) := by
    intro L
    induction L with
    | nil => intro _ i hi; cases hi
    | cons a t ih =>
      intro hnd i hi d hd
      simp only [List.map_cons, List.nodup_cons] at hnd
      rcases List.mem_cons.mp hi with rfl | hi
      · simp [arraysOf, hd]
      · have hne : a.name ≠ i.name := fun e => hnd.1 (by rw [e]; exact List.mem_map_of_mem hi)
        have := ih hnd.2 i hi d hd
        unfold arraysOf at this ⊢
        rw [List.filterMap_cons]
        cases ha : a.dims with
        | none => simpa using this
        | some d' => simp only [Option.map_some, List.find?_cons, hne, decide_false]; exact this
  have hsub : ∀ (L : List Item), (arraysOf L).map Prod.fst = (L.filter fun i => i.dims.isSome).map Item.name := by
    intro L
    induction L with
    | nil => rfl
    | cons a t ih =>
      unfold arraysOf at ih ⊢
      rw [List.filterMap_cons]
      cases ha : a.dims <;> simp [ha, ih]
  have hkwn : ((allocate σ.arrays (arraysOf items')).2.map Prod.fst).Nodup := by
    rw [(allocate_fst _ _).2, hsub]
    exact List.Nodup.sublist (List.Sublist.map _ List.filter_sublist) hn'
  have hnone : ∀ k, (∀ i ∈ items', i.dims.isSome → i.name ≠ k) → (arraysOf items').find? (·.1 = k) = none := by
    intro k hk
    rw [List.find?_eq_none]
    intro p hp
    obtain ⟨i, hi, hp⟩ := List.mem_filterMap.mp hp
    cases hd : i.dims with
    | none => rw [hd] at hp; cases hp
    | some d =>
      rw [hd] at hp
      simp only [Option.map_some, Option.some.injEq] at hp
      subst hp
      simpa using hk i hi (by simp [hd])
  obtain ⟨m', hadd, hlev, _, _⟩ := add_level (names := plainOf items') (kw := (allocate σ.arrays (arraysOf items')).2) hl
  have hget : ∀ k, (Mem.addToScope f (plainOf items') (allocate σ.arrays (arraysOf items')).2).get k =
      (((allocate σ.arrays (arraysOf items')).2.find? (·.1 = k)).map Prod.snd).or (if k ∈ plainOf items' then some (.bool false) else f.get k) := by
    intro k
    unfold Mem.addToScope
    rw [addKw_get _ _ _ hkwn, addNames_get]
  refine ⟨{ σ with mem := m', arrays := (allocate σ.arrays (arraysOf items')).1 }, _, ?_, hlev, ?_, ?_, ?_⟩
  · rw [hcode]; simp [runDeclaration, hadd]
  · intro i hi
    obtain ⟨i', hi', hname, hdims⟩ := hdim i hi
    rw [← hdims]
    cases hd : i'.dims with
    | none =>
      simp only
      have h0 : (arraysOf items').find? (·.1 = i.name) = none := by
        apply hnone
        intro j hj hjd e
        -- two items with one name are the same
        have : j = i' := by
          have key : ∀ (L : List Item), (L.map Item.name).Nodup → ∀ a ∈ L, ∀ b ∈ L, a.name = b.name → a = b := by
            intro L
            induction L with
            | nil => intro _ a ha; cases ha
            | cons c t ih =>
              intro hnd a ha b hb e
              simp only [List.map_cons, List.nodup_cons] at hnd
              rcases List.mem_cons.mp ha with h1 | h1 <;> rcases List.mem_cons.mp hb with h2 | h2
              · rw [h1, h2]
              · exact absurd (by rw [← h1, e]; exact List.mem_map_of_mem h2) hnd.1
              · exact absurd (by rw [← h2, ← e]; exact List.mem_map_of_mem h1) hnd.1
              · exact ih hnd.2 a h1 b h2 e
          exact key items' hn' j hj i' hi' (by rw [e, hname])
        rw [this, hd] at hjd; cases hjd
      have h1 := allocate_find (arraysOf items') σ.arrays i.name
      rw [h0] at h1
      have hmem : i.name ∈ plainOf items' := List.mem_filterMap.mpr ⟨i', hi', by simp [hd, hname]⟩
      rw [hget, h1]; simp [hmem]
    | some d =>
      simp only
      have h1 := allocate_find (arraysOf items') σ.arrays i.name
      rw [← hname, hfind items' hn' i' hi' d hd, hname] at h1
      obtain ⟨r, e1, e2, e3⟩ := h1
      exact ⟨r, by rw [hget, e1]; rfl, e2, e3⟩
  · intro k hk
    rw [← hnames] at hk
    have h0 : (arraysOf items').find? (·.1 = k) = none :=
      hnone k fun i hi _ e => hk (by rw [← e]; exact List.mem_map_of_mem hi)
    have h1 := allocate_find (arraysOf items') σ.arrays k
    rw [h0] at h1
    have hnm : k ∉ plainOf items' := by
      intro hm
      obtain ⟨i, hi, e⟩ := List.mem_filterMap.mp hm
      split at e
      · injection e with e; exact hk (by rw [← e]; exact List.mem_map_of_mem hi)
      · cases e
    rw [hget, h1]; simp [hnm]
  · intro r hr
    simp only [(allocate_fst _ _).1]
    rw [List.getElem?_append_left hr]

/-- `PRIVATE test, items[2, 5]`. -/
example : level .priv exEmpty.mem = some [("price", .num 7), ("total", .num 9)] ∧
    ([⟨"test", none⟩, ⟨"items", some (2, 5)⟩].map Item.name).Nodup ∧
    declaredAs false ⟨"items", some (2, 5)⟩ = some (2, 5) := by decide +kernel

/-- **C79** fails for DIMENSION and DECLARE without a scope: nothing is declared. -/
theorem C79_dimension_fails (σ : State) (array : Bool) (items : List Item) :
    runDeclaration σ (visitDeclaration .dimension array items) = .ok σ := by
  simp only [visitDeclaration]
  split <;> split <;> rfl

/-- `DIMENSION a[3]`, `a[1] = 5`. -/
example : ∃ σ', runDeclaration exEmpty (visitDeclaration .dimension false [⟨"a", some (3, 0)⟩]) = .ok σ' ∧
    assignElement σ' "a" 1 1 (.num 5) = .error .nameError := ⟨_, rfl, rfl⟩

end Props
