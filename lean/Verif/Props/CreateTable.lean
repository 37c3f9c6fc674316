import Verif.Model.CreateTable
import Verif.Props.Workareas
/-!
# C129: creating and altering tables

A table made by CREATE TABLE has the columns of the statement, is open and selected; ALTER TABLE adds and drops the named columns.
-/
namespace Props
open Model.CreateTable
open Model.Database (Str Err DB WS tableFile useOpen tableInfo lower used openTable)

namespace CreateTableSpec

/-- The names of FoxPro's types. -/
def types : List (Str × Char) :=
  [("c".toList, 'C'), ("char".toList, 'C'), ("character".toList, 'C'), ("y".toList, 'Y'), ("currency".toList, 'Y'),
   ("d".toList, 'D'), ("date".toList, 'D'), ("t".toList, 'T'), ("datetime".toList, 'T'), ("b".toList, 'B'), ("double".toList, 'B'),
   ("f".toList, 'F'), ("float".toList, 'F'), ("g".toList, 'G'), ("general".toList, 'G'), ("i".toList, 'I'), ("int".toList, 'I'),
   ("integer".toList, 'I'), ("l".toList, 'L'), ("logical".toList, 'L'), ("m".toList, 'M'), ("memo".toList, 'M'), ("n".toList, 'N'),
   ("num".toList, 'N'), ("numeric".toList, 'N'), ("q".toList, 'Q'), ("varbinary".toList, 'Q'), ("v".toList, 'V'), ("varchar".toList, 'V'),
   ("w".toList, 'W'), ("blob".toList, 'W')]

/-- The types with a width; the others have a fixed one, which is not counted here. -/
def sized (c : Char) : Bool := c ∈ ['C', 'F', 'N', 'Q', 'V']

/-- A field that FoxPro accepts, with its type. -/
structure Valid (f : Field) (l : Char) : Prop where
  name : f.name ≠ [] ∧ ∀ c ∈ f.name, c.isAlphanum = true ∨ c = '_'
  type : (lower f.type, l) ∈ types
  size : ∀ ns, f.size = some ns → ns.length = 1 ∨ ns.length = 2

/-- The column of a field: names are the same in any case, a missing width is 1, missing decimals are 0. -/
def columnOf (f : Field) (l : Char) : Column :=
  if sized l then ⟨lower f.name, l, (f.size.getD [1]).headD 0, ((f.size.getD [1]).drop 1).headD 0⟩ else ⟨lower f.name, l, 0, 0⟩

/-- The numbers behind the type in the description given to the package. -/
def written (f : Field) (l : Char) : Nat := if l = 'L' ∧ f.size.getD [1] = [1] then 0 else (f.size.getD [1]).length

/-- The package takes a width exactly for the types that have one. -/
def Agrees (accepts : Char → Nat → Bool) : Prop := ∀ c k, accepts c k = true → (k = 0 ↔ sized c = false)

/-- The fields that get into the table as they should. -/
def Good (accepts : Char → Nat → Bool) (f : Field) (l : Char) : Prop :=
  lower f.name ≠ "class".toList ∧ f.type.length = 1 ∧ accepts l (written f l) = true

end CreateTableSpec
open CreateTableSpec

namespace CreateTableAux

def seps : List Char := [' ', ';', '(', ')', ',']

theorem toLower_sep {c : Char} (h : c.toLower ∈ seps) : c ∈ seps := by
  unfold Char.toLower at h
  split at h
  · rename_i hc
    exfalso
    have h1 : 65 ≤ c.val.toNat := hc.1
    have h2 : c.val.toNat ≤ 90 := hc.2
    simp only [seps, List.mem_cons, List.not_mem_nil, or_false] at h
    have e1 : ('a'.val - 'A'.val).toNat = 32 := by decide
    rcases h with h | h | h | h | h <;>
    · have h3 := congrArg (fun c => c.val.toNat) h
      simp only [UInt32.toNat_add, e1] at h3
      revert h3
      simp only [show (' ' : Char).val.toNat = 32 from rfl, show (';' : Char).val.toNat = 59 from rfl, show ('(' : Char).val.toNat = 40 from rfl,
        show (')' : Char).val.toNat = 41 from rfl, show (',' : Char).val.toNat = 44 from rfl]
      omega
  · exact h

/-- Texts without separators. -/
def Clean (s : Str) : Prop := s ≠ [] ∧ ∀ c ∈ s, c ∉ seps

theorem alnum_clean {c : Char} (h : c.isAlphanum = true ∨ c = '_') : c ∉ seps := by
  intro hm
  simp only [seps, List.mem_cons, List.not_mem_nil, or_false] at hm
  rcases hm with rfl | rfl | rfl | rfl | rfl <;> revert h <;> decide

theorem name_clean {s : Str} (h : s ≠ [] ∧ ∀ c ∈ s, c.isAlphanum = true ∨ c = '_') : Clean (lower s) := by
  refine ⟨fun h0 => h.1 (by simpa [lower] using h0), fun c hc hs => ?_⟩
  obtain ⟨d, hd, rfl⟩ := List.mem_map.mp hc
  exact alnum_clean (h.2 d hd) (toLower_sep hs)

theorem identifier_clean {s : Str} (h : Clean (lower s)) : Clean (identifier s) := by
  simp only [identifier]
  split
  · exact ⟨by decide, by decide⟩
  · exact h

theorem types_table : ∀ p ∈ types, Clean p.1 ∧ p.1 ≠ "class".toList ∧ (p.1.map Char.toUpper = ['L'] ↔ p.1.length = 1 ∧ p.2 = 'L') ∧
    (p.1.length = 1 → (p.1.headD ' ').toUpper = p.2) := by
  have h : ∀ p ∈ types, (p.1 ≠ [] ∧ ∀ c ∈ p.1, c ∉ seps) ∧ p.1 ≠ "class".toList ∧ (p.1.map Char.toUpper = ['L'] ↔ p.1.length = 1 ∧ p.2 = 'L') ∧
    (p.1.length = 1 → (p.1.headD ' ').toUpper = p.2) := by decide +kernel
  exact h

theorem split_none {sep : Char} {a : Str} (h : sep ∉ a) : split sep a = [a] := by
  induction a with
  | nil => rfl
  | cons c a ih =>
    have hc : c ≠ sep := fun e => h (e ▸ List.mem_cons_self)
    simp [split, hc, ih fun hm => h (List.mem_cons_of_mem _ hm)]

theorem split_cons {sep : Char} {a : Str} (h : sep ∉ a) (s : Str) : split sep (a ++ sep :: s) = a :: split sep s := by
  induction a with
  | nil => simp [split]
  | cons c a ih =>
    have hc : c ≠ sep := fun e => h (e ▸ List.mem_cons_self)
    simp [split, hc, ih fun hm => h (List.mem_cons_of_mem _ hm)]

/-- Reading a joined list. -/
theorem join_read {β : Type} (sep : Char) (hsep : sep ≠ ' ') (f : Str → Option β) (hf : ∀ s, f (' ' :: s) = f s) :
    ∀ (l : List Str), l ≠ [] → (∀ x ∈ l, sep ∉ x) → (split sep (join [sep, ' '] l)).mapM f = l.mapM f ∧
      (split sep (' ' :: join [sep, ' '] l)).mapM f = l.mapM f
  | [], h, _ => absurd rfl h
  | [x], _, h => by
    have hx := h x List.mem_cons_self
    have hx' : sep ∉ ' ' :: x := by
      intro hm
      rcases List.mem_cons.mp hm with e | hm
      · exact hsep e
      · exact hx hm
    rw [join, split_none hx, split_none hx']
    simp [List.mapM_cons, hf]
  | x :: y :: l, _, h => by
    have hx := h x List.mem_cons_self
    have hx' : sep ∉ ' ' :: x := by
      intro hm
      rcases List.mem_cons.mp hm with e | hm
      · exact hsep e
      · exact hx hm
    have ih := (join_read sep hsep f hf (y :: l) (by simp) fun z hz => h z (List.mem_cons_of_mem _ hz)).2
    have e : join [sep, ' '] (x :: y :: l) = x ++ sep :: (' ' :: join [sep, ' '] (y :: l)) := by simp [join]
    rw [e]
    refine ⟨?_, ?_⟩
    · rw [split_cons hx, List.mapM_cons, ih, ← List.mapM_cons]
    · rw [← List.cons_append, split_cons hx', List.mapM_cons, ih, hf, ← List.mapM_cons]

theorem digits_ne (k : Nat) : Nat.toDigits 10 k ≠ [] := Nat.toDigits_ne_nil
theorem digits_are (k : Nat) : ∀ c ∈ Nat.toDigits 10 k, c.isDigit = true := fun _ hc => Nat.isDigit_of_mem_toDigits (by decide) (by decide) hc

theorem digit_clean {c : Char} (h : c.isDigit = true) : c ∉ seps := by
  intro hm
  simp only [seps, List.mem_cons, List.not_mem_nil, or_false] at hm
  rcases hm with rfl | rfl | rfl | rfl | rfl <;> revert h <;> decide

theorem digits_clean (k : Nat) : Clean (Nat.toDigits 10 k) := ⟨digits_ne k, fun c hc => digit_clean (digits_are k c hc)⟩

theorem lstrip_clean {s : Str} (h : Clean s) (t : Str) : lstrip (s ++ t) = s ++ t := by
  cases s with
  | nil => exact absurd rfl h.1
  | cons c s =>
    have hc : c ≠ ' ' := fun e => h.2 c List.mem_cons_self (e ▸ by decide)
    simp only [List.cons_append]
    unfold lstrip
    split
    · rename_i s' heq
      simp only [List.cons.injEq] at heq
      exact absurd heq.1 hc
    · rfl

theorem number_digits (k : Nat) : number (Nat.toDigits 10 k) = some k := by
  have h := lstrip_clean (digits_clean k) []
  rw [List.append_nil] at h
  simp only [number, h]
  rw [if_pos ⟨digits_ne k, List.all_eq_true.mpr (digits_are k)⟩]
  have := Nat.ofDigitChars_ten_toDigits (n := k)
  exact congrArg some this

theorem number_blank (s : Str) : number (' ' :: s) = number s := rfl

theorem mapM_digits : ∀ ns : List Nat, (ns.map (Nat.toDigits 10)).mapM number = some ns
  | [] => rfl
  | n :: ns => by
    rw [List.map_cons, List.mapM_cons, number_digits, mapM_digits ns]
    rfl

theorem numbers_read (ns : List Nat) (hn : ns ≠ []) :
    numbers ('(' :: (join [',', ' '] (ns.map (Nat.toDigits 10)) ++ [')'])) = some ns := by
  have h := (join_read ',' (by decide) number number_blank (ns.map (Nat.toDigits 10)) (by simpa using hn) (by
    intro x hx
    obtain ⟨k, -, rfl⟩ := List.mem_map.mp hx
    exact fun hm => (digits_clean k).2 _ hm (by decide))).1
  simp only [numbers, List.getLast?_append, List.getLast?_singleton, Option.some_or, if_true, List.dropLast_concat]
  rw [h, mapM_digits]

theorem numbers_other {c : Char} (h : c ≠ '(') (s : Str) : numbers (c :: s) = none := by
  unfold numbers
  split
  · rename_i heq; cases heq
  · rename_i heq
    simp only [List.cons.injEq] at heq
    exact absurd heq.1 h
  · rfl

theorem column_blank (accepts : Char → Nat → Bool) (s : Str) : Model.CreateTable.column accepts (' ' :: s) = Model.CreateTable.column accepts s := rfl

theorem take_name {s : Str} (h : Clean s) (t : Str) : (s ++ ' ' :: t).takeWhile (· ≠ ' ') = s := by
  rw [List.takeWhile_append_of_pos (fun c hc => by simpa using fun e : c = ' ' => h.2 c hc (e ▸ by decide))]
  simp

/-- The description of a field as the package reads it. -/
theorem column_text (accepts : Char → Nat → Bool) (f : Field) (l : Char) (hv : Valid f l) :
    Model.CreateTable.column accepts (fieldText f) =
      if f.type.length = 1 ∧ accepts l (written f l) = true then
        some (if written f l = 0 then ⟨identifier f.name, l, 0, 0⟩
          else ⟨identifier f.name, l, (f.size.getD [1]).headD 0, ((f.size.getD [1]).drop 1).headD 0⟩)
      else none := by
  have ht := types_table _ hv.type
  simp only at ht
  obtain ⟨htc, htn, htl, hth⟩ := ht
  have hn := identifier_clean (name_clean hv.name)
  have hi : identifier f.type = lower f.type := by simp only [identifier, if_neg htn]
  have hlen : f.type.length = (lower f.type).length := by simp [lower]
  have hsz : f.size.getD [1] ≠ [] := by
    cases hs : f.size with
    | none => simp
    | some ns => have := hv.size ns hs; intro h0; simp only [Option.getD_some] at h0; rw [h0] at this; simp at this
  rw [hlen]
  generalize lower f.type = ty at *
  generalize hname : identifier f.name = nm at *
  have hcol : ∀ rest, Model.CreateTable.column accepts (nm ++ ' ' :: rest) = match rest with
      | [] => none
      | t :: s =>
        match numbers s with
        | none => none
        | some ns => if accepts t.toUpper ns.length = true then some ⟨nm, t.toUpper, ns.headD 0, (ns.drop 1).headD 0⟩ else none := by
    intro rest
    have hd : (nm ++ ' ' :: rest).drop (nm.length + 1) = rest := by
      rw [← List.drop_drop, List.drop_left]; rfl
    simp only [Model.CreateTable.column, lstrip_clean hn, take_name hn, hd]
    cases rest with
    | nil => rfl
    | cons t s =>
      simp only
      cases numbers s with
      | none => rfl
      | some ns => simp [hn.1]
  have htext : fieldText f = nm ++ ' ' :: (if ty.length = 1 ∧ l = 'L' ∧ f.size.getD [1] = [1] then ty
      else ty ++ '(' :: (join [',', ' '] ((f.size.getD [1]).map (Nat.toDigits 10)) ++ [')'])) := by
    simp only [fieldText, hname, hi]
    by_cases h : ty.length = 1 ∧ l = 'L' ∧ f.size.getD [1] = [1]
    · rw [if_pos ⟨htl.mpr ⟨h.1, h.2.1⟩, h.2.2⟩, if_pos h]; simp
    · rw [if_neg (fun hc => h ⟨(htl.mp hc.1).1, (htl.mp hc.1).2, hc.2⟩), if_neg h]; simp
  rw [htext, hcol]
  match ty, htc, hth with
  | [], htc, _ => exact absurd rfl htc.1
  | [t], _, hth =>
    have htu : t.toUpper = l := by simpa using hth rfl
    by_cases h : l = 'L' ∧ f.size.getD [1] = [1]
    · have hw : written f l = 0 := by simp only [written, if_pos h]
      simp [h.1, h.2, hw, numbers, htu]
      have : written f 'L' = 0 := h.1 ▸ hw
      simp [this]
    · have hw : written f l = (f.size.getD [1]).length := by simp only [written, if_neg h]
      have hne : (f.size.getD [1]).length ≠ 0 := fun h0 => hsz (List.length_eq_zero_iff.mp h0)
      rw [if_neg (fun hc => h hc.2)]
      simp only [List.cons_append, List.nil_append, numbers_read _ hsz, htu, hw]
      simp [hsz]
  | t :: t' :: ty, htc, _ =>
    have : t' ≠ '(' := fun e => htc.2 t' (by simp) (e ▸ by decide)
    simp [numbers_other this]

theorem clean_sep (f : Field) (l : Char) (hv : Valid f l) : ';' ∉ fieldText f := by
  have ht := types_table _ hv.type
  have hn := identifier_clean (name_clean hv.name)
  have hi : identifier f.type = lower f.type := by simp only [identifier, if_neg ht.2.1]
  have htc := ht.1
  simp only at htc
  have clean : ∀ s, Clean s → ';' ∉ s := fun s hs hm => hs.2 _ hm (by decide)
  have hj : ∀ ns : List Nat, ';' ∉ join [',', ' '] (ns.map (Nat.toDigits 10)) := by
    intro ns
    induction ns with
    | nil => simp [join]
    | cons n ns ih =>
      cases ns with
      | nil => exact clean _ (digits_clean n)
      | cons m ns =>
        simp only [List.map_cons, join, List.mem_append, not_or] at ih ⊢
        exact ⟨⟨clean _ (digits_clean n), by decide⟩, ih⟩
  simp only [fieldText, hi]
  split
  · simp only [List.mem_append, not_or]
    exact ⟨⟨clean _ hn, by decide⟩, clean _ htc⟩
  · simp only [List.mem_append, not_or]
    exact ⟨⟨⟨⟨⟨clean _ hn, by decide⟩, clean _ htc⟩, by decide⟩, hj _⟩, by decide⟩

theorem mapM_some {α β : Type} (g : α → Option β) (h : α → β) : ∀ l : List α, l.mapM g = some (l.map h) ↔ ∀ x ∈ l, g x = some (h x)
  | [] => by simp
  | x :: l => by
    rw [List.mapM_cons, List.map_cons]
    have ih := mapM_some g h l
    cases hg : g x with
    | none => simp [hg]
    | some y =>
      cases hl : l.mapM g with
      | none =>
        rw [hl] at ih
        simp only [reduceCtorEq, false_iff] at ih
        simp only [List.mem_cons, forall_eq_or_imp]
        exact ⟨fun h => (by cases h), fun h => absurd h.2 ih⟩
      | some ys =>
        rw [hl] at ih
        simp only [List.mem_cons, forall_eq_or_imp, hg]
        simp only [Option.some.injEq] at ih ⊢
        rw [← ih]
        simp

end CreateTableAux
open CreateTableAux

/-- C129, exactly: the description given to the package has the columns of the statement if and only if no field is named CLASS, all
types are written with one letter, and the package takes each type with the numbers written behind it, which is one number where the
statement has none (except for L): D, T, M, I, ... are refused by a package that takes no width for them. -/
theorem C129_columns_iff (accepts : Char → Nat → Bool) (ha : Agrees accepts) (fs : List (Field × Char)) (hne : fs ≠ [])
    (hv : ∀ p ∈ fs, Valid p.1 p.2) :
    columns accepts (setupString (fs.map Prod.fst)) = some (fs.map fun p => columnOf p.1 p.2) ↔ ∀ p ∈ fs, Good accepts p.1 p.2 := by
  have h1 := (join_read ';' (by decide) (Model.CreateTable.column accepts) (column_blank accepts) ((fs.map Prod.fst).map fieldText)
    (by simpa using hne) (by
      intro x hx
      simp only [List.map_map, List.mem_map, Function.comp] at hx
      obtain ⟨p, hp, rfl⟩ := hx
      exact clean_sep p.1 p.2 (hv p hp))).1
  have h2 : columns accepts (setupString (fs.map Prod.fst)) = (((fs.map Prod.fst).map fieldText)).mapM (Model.CreateTable.column accepts) := h1
  rw [h2, List.map_map, List.mapM_map, mapM_some]
  refine forall_congr' fun p => forall_congr' fun hp => ?_
  obtain ⟨f, l⟩ := p
  have hvp := hv _ hp
  simp only [Function.comp, column_text accepts f l hvp]
  have hclass : identifier f.name = lower f.name ↔ lower f.name ≠ "class".toList := by
    simp only [identifier]
    split
    · rename_i h; rw [h]; decide
    · rename_i h; exact ⟨fun _ => h, fun _ => rfl⟩
  simp only [Good, columnOf]
  by_cases h : f.type.length = 1 ∧ accepts l (written f l) = true
  · rw [if_pos h]
    have hs := ha _ _ h.2
    cases hl : sized l with
    | false =>
      rw [if_pos (hs.mpr hl)]
      simp [hclass, h.1, h.2]
    | true =>
      rw [if_neg (fun h0 => by rw [hs.mp h0] at hl; cases hl)]
      simp [hclass, h.1, h.2]
  · rw [if_neg h]
    simp only [reduceCtorEq, false_iff, not_and]
    exact fun _ h1 h2 => h ⟨h1, h2⟩

namespace CreateTableDemo
/-- The types of dBase III. -/
def accepts (c : Char) (k : Nat) : Bool := (c = 'C' && k == 1) || (c = 'N' && k == 2) || ((c = 'D' || c = 'L' || c = 'M') && k == 0)
theorem agrees : Agrees accepts := by
  intro c k h
  simp only [accepts, Bool.or_eq_true, Bool.and_eq_true, decide_eq_true_eq, beq_iff_eq] at h
  rcases h with (⟨rfl, rfl⟩ | ⟨rfl, rfl⟩) | ⟨(rfl | rfl) | rfl, rfl⟩ <;> decide
def fields : List (Field × Char) :=
  [(⟨"NAME".toList, "C".toList, some [50]⟩, 'C'), (⟨"QUANTITY".toList, "N".toList, some [5, 0]⟩, 'N'), (⟨"RECEIVED".toList, "L".toList, some [1]⟩, 'L')]
theorem valid : ∀ p ∈ fields, Valid p.1 p.2 := by
  intro p hp
  simp only [fields, List.mem_cons, List.not_mem_nil, or_false] at hp
  rcases hp with rfl | rfl | rfl <;> exact ⟨by decide, by decide, by simp⟩
end CreateTableDemo

open CreateTableDemo in
example : setupString (fields.map Prod.fst) = "name c(50); quantity n(5, 0); received l".toList ∧
    columns accepts (setupString (fields.map Prod.fst)) = some [⟨"name".toList, 'C', 50, 0⟩, ⟨"quantity".toList, 'N', 5, 0⟩, ⟨"received".toList, 'L', 0, 0⟩] ∧
    setupString [⟨"BORN".toList, "D".toList, none⟩] = "born d(1)".toList ∧ columns accepts "born d(1)".toList = none := by
  decide +kernel

variable {ρ : Type} [DecidableEq ρ]

namespace CreateTableAux

theorem open_free (load : Str → List ρ) (db : DB ρ) (name : Str) (i : Nat) (hu : used db (.str name) = false)
    (hi : db.areas.findIdx? Option.isNone = some i) :
    useOpen load db name (.num 0) [] = ({ db with areas := db.areas.set i (some (openTable load name [])) }, none) := by
  obtain ⟨hlt, hx, _⟩ := List.findIdx?_eq_some_iff_getElem.mp hi
  have hset : Model.Database.setIndex db.areas (Int.ofNat i) (some (openTable load name [])) = .ok (db.areas.set i (some (openTable load name []))) := by
    simp only [Model.Database.setIndex]
    rw [if_neg (by simp), if_pos (by simpa using hlt)]
    simp
  simp only [useOpen, hu, Bool.false_eq_true, if_false, if_true, hi, Option.map_some, hset]

end CreateTableAux

/-- C129: CREATE TABLE with FREE makes an empty table with the columns of the statement and opens it in the first free work area; no
other table is changed.  Missing: without FREE, CREATE DBF and CREATE CURSOR (`C129_free_fails`), the selection of the new table
(`C129_selected_fails`), names in use (`C129_in_use_fails`). -/
theorem C129_create_partial (accepts : Char → Nat → Bool) (ha : Agrees accepts) (w : World ρ) (name : Str) (fs : List (Field × Char)) (hne : fs ≠ [])
    (hv : ∀ p ∈ fs, Valid p.1 p.2) (hg : ∀ p ∈ fs, Good accepts p.1 p.2) (i : Nat) (hu : used w.db (.str name) = false)
    (hi : w.db.areas.findIdx? Option.isNone = some i) :
    ∃ w', create accepts w .table true name (fs.map Prod.fst) = (w', none) ∧
      w'.disk (tableFile name) = some (fs.map (fun p => columnOf p.1 p.2), []) ∧ (∀ f, f ≠ tableFile name → w'.disk f = w.disk f) ∧
      (∃ t, w'.db.areas = w.db.areas.set i (some t) ∧ t.file = tableFile name ∧ t.recs = []) := by
  have hc := (C129_columns_iff accepts ha fs hne hv).mpr hg
  have ho := open_free (World.load (w.store name (fs.map fun p => columnOf p.1 p.2) [])) w.db name i hu hi
  refine ⟨{ w.store name (fs.map fun p => columnOf p.1 p.2) [] with
    db := { w.db with areas := w.db.areas.set i (some (openTable (World.load (w.store name (fs.map fun p => columnOf p.1 p.2) [])) name [])) } }, ?_, ?_, ?_, ?_⟩
  · simp only [create, if_true, hc]
    rw [show (w.store name (fs.map fun p => columnOf p.1 p.2) []).db = w.db from rfl, ho]
  · simp [World.store]
  · intro f hf; simp [World.store, hf]
  · exact ⟨_, rfl, rfl, by simp [openTable, World.load, World.store]⟩

open CreateTableDemo in
example : (create accepts (⟨fun _ => none, ⟨[none, none], 0⟩⟩ : World Int) .table true "report".toList (fields.map Prod.fst)).2 = none ∧
    ((create accepts (⟨fun _ => none, ⟨[none, none], 0⟩⟩ : World Int) .table true "report".toList (fields.map Prod.fst)).1.disk "report.dbf".toList).isSome := by
  decide +kernel

/-- C129: without FREE nothing is created, and CREATE DBF and CREATE CURSOR always are an error. -/
theorem C129_free_fails (accepts : Char → Nat → Bool) (w : World ρ) (name : Str) (fs : List Field) (free : Bool) :
    create accepts w .table false name fs = (w, none) ∧ (create accepts w .dbf free name fs).1 = w ∧ (create accepts w .dbf free name fs).2 ≠ none ∧
      (create accepts w .cursor free name fs).1 = w ∧ (create accepts w .cursor free name fs).2 ≠ none := by
  refine ⟨rfl, rfl, by simp [create], rfl, by simp [create]⟩

open CreateTableDemo in
example : (create accepts (⟨fun _ => none, ⟨[none, none], 0⟩⟩ : World Int) .table false "report".toList (fields.map Prod.fst)).1.disk "report.dbf".toList = none := by
  decide +kernel

/-- C129: where a table is selected it stays selected, so the commands behind CREATE TABLE go to that one. -/
theorem C129_selected_fails (accepts : Char → Nat → Bool) (w : World ρ) (kind : Kind) (free : Bool) (name : Str) (fs : List Field) (t : WS ρ)
    (hc : 0 ≤ w.db.current) (ht : tableInfo w.db .none = .ok t) : tableInfo (create accepts w kind free name fs).1.db .none = .ok t := by
  cases kind with
  | dbf => exact ht
  | cursor => exact ht
  | table =>
    cases free with
    | false => exact ht
    | true =>
      simp only [create, if_true]
      cases columns accepts (setupString fs) with
      | none => exact ht
      | some cols =>
        simp only
        cases hu : used w.db (.str name) with
        | true => simpa [useOpen, World.store, hu] using ht
        | false =>
          cases hi : w.db.areas.findIdx? Option.isNone with
          | none => simpa [useOpen, World.store, hu, hi] using ht
          | some i =>
            rw [open_free (hu := by simpa [World.store] using hu) (hi := by simpa [World.store] using hi)]
            obtain ⟨hlt, hx, _⟩ := List.findIdx?_eq_some_iff_getElem.mp hi
            obtain ⟨k, hk⟩ := Int.eq_ofNat_of_zero_le hc
            simp only [tableInfo, Model.Database.getWorkarea, World.store, hk] at ht ⊢
            have hki : i ≠ k := by
              intro e
              rw [← e, Py.index_nat, List.getElem?_eq_getElem hlt] at ht
              cases hw : w.db.areas[i] with
              | none => rw [hw] at ht; cases ht
              | some _ => rw [hw] at hx; cases hx
            rw [Py.index_nat, List.getElem?_set_ne hki, ← Py.index_nat]
            exact ht

open CreateTableDemo in
example : (tableInfo (create accepts (⟨fun _ => none, ⟨[some ⟨[], "a.dbf".toList, [1], 0, none, false⟩, none], 0⟩⟩ : World Int) .table true "report".toList
    (fields.map Prod.fst)).1.db .none).toOption.map (·.file) = some "a.dbf".toList := by decide +kernel

/-- C129: CREATE TABLE for a table that is open is an error, but the records of the table are gone. -/
theorem C129_in_use_fails (accepts : Char → Nat → Bool) (ha : Agrees accepts) (w : World ρ) (name : Str) (fs : List (Field × Char)) (hne : fs ≠ [])
    (hv : ∀ p ∈ fs, Valid p.1 p.2) (hg : ∀ p ∈ fs, Good accepts p.1 p.2) (hu : used w.db (.str name) = true) :
    (create accepts w .table true name (fs.map Prod.fst)).2 = some .inUse ∧
      (create accepts w .table true name (fs.map Prod.fst)).1.disk (tableFile name) = some (fs.map (fun p => columnOf p.1 p.2), []) := by
  have hc := (C129_columns_iff accepts ha fs hne hv).mpr hg
  have ho : ∀ load : Str → List ρ, useOpen load w.db name (.num 0) [] = (w.db, some .inUse) := by
    intro load; simp only [useOpen, hu, if_true]
  simp only [create, if_true, hc]
  rw [show (w.store name (fs.map fun p => columnOf p.1 p.2) []).db = w.db from rfl, ho]
  exact ⟨rfl, by simp [World.store]⟩

namespace CreateTableDemo
def busy : World Int :=
  ⟨fun f => if f = "report.dbf".toList then some ([⟨"name".toList, 'C', 50, 0⟩], [1, 2]) else none, ⟨[some ⟨[], "report.dbf".toList, [1, 2], 0, none, false⟩, none], 0⟩⟩
end CreateTableDemo

open CreateTableDemo in
example : (create accepts busy .table true "report".toList (fields.map Prod.fst)).2 = some .inUse ∧
    ((create accepts busy .table true "report".toList (fields.map Prod.fst)).1.disk "report.dbf".toList).map Prod.snd = some [] := by decide +kernel

/-! ## ALTER TABLE -/

namespace CreateTableSpec

/-- A clause of ALTER TABLE; fields with their types. -/
inductive Change where
  | add (f : Field) (l : Char)
  | drop (x : Str)
  | change (x : Str)

def Change.clause : Change → Clause
  | .add f _ => .add f
  | .drop x => .drop x
  | .change x => .change x

/-- One clause; `none`: FoxPro refuses it. -/
def step (cols : List Column) : Change → Option (List Column)
  | .add f l => if lower f.name ∈ cols.map Column.name then none else some (cols ++ [columnOf f l])
  | .drop x => if lower x ∈ cols.map Column.name then some (cols.filter fun c => c.name ≠ lower x) else none
  | .change x => if lower x ∈ cols.map Column.name then some cols else none

/-- All clauses in order. -/
def foxAlter : List Column → List Change → Option (List Column)
  | cols, [] => some cols
  | cols, c :: cs =>
    match step cols c with
    | none => none
    | some cols => foxAlter cols cs

def adds (cs : List Change) : List (Field × Char) := cs.filterMap fun | .add f l => some (f, l) | _ => none
def drops (cs : List Change) : List Str := cs.filterMap fun | .drop x => some x | _ => none
/-- The names behind DROP COLUMN and ALTER COLUMN. -/
def named (cs : List Change) : List Str := cs.filterMap fun | .drop x => some x | .change x => some x | _ => none

/-- The fields are accepted by FoxPro and by the package; nothing is called CLASS. -/
def Fine (accepts : Char → Nat → Bool) : Change → Prop
  | .add f l => Valid f l ∧ Good accepts f l
  | .drop x => lower x ≠ "class".toList
  | .change x => lower x ≠ "class".toList

end CreateTableSpec

namespace CreateTableAux

theorem name_columnOf (f : Field) (l : Char) : (columnOf f l).name = lower f.name := by
  simp only [columnOf]; split <;> rfl

theorem filter_length {cols : List Column} (h : (cols.map Column.name).Nodup) {x : Str} (hx : x ∈ cols.map Column.name) :
    (cols.filter fun c => c.name ≠ x).length + 1 = cols.length := by
  induction cols with
  | nil => simp at hx
  | cons c cols ih =>
    simp only [List.map_cons, List.nodup_cons] at h
    by_cases hc : c.name = x
    · have : ∀ d ∈ cols, d.name ≠ x := fun d hd e => h.1 (by rw [hc, ← e]; exact List.mem_map_of_mem hd)
      rw [List.filter_cons_of_neg (by simpa using hc), List.filter_eq_self.mpr (by simpa using this)]
      rfl
    · have hx' : x ∈ cols.map Column.name := by
        rcases List.mem_cons.mp hx with e | h
        · exact absurd e.symm hc
        · exact h
      rw [List.filter_cons_of_pos (by simpa using hc)]
      have := ih h.2 hx'
      simp only [List.length_cons]; omega

theorem step_nodup {cols cols' : List Column} (h : (cols.map Column.name).Nodup) (c : Change) (hs : step cols c = some cols') :
    (cols'.map Column.name).Nodup := by
  cases c with
  | add f l =>
    simp only [step] at hs
    split at hs
    · cases hs
    · rename_i hn
      cases hs
      rw [List.map_append, List.map_cons, List.map_nil, name_columnOf, List.nodup_append]
      refine ⟨h, by simp, fun a ha b hb => ?_⟩
      simp only [List.mem_singleton] at hb
      exact fun e => hn (hb ▸ e ▸ ha)
  | drop x =>
    simp only [step] at hs
    split at hs
    · cases hs; exact h.sublist ((List.filter_sublist).map _)
    · cases hs
  | change x =>
    simp only [step] at hs
    split at hs
    · cases hs; exact h
    · cases hs

/-- What FoxPro's columns have to do with the numbers of clauses. -/
theorem alter_facts : ∀ (cs : List Change) (cols r : List Column), (cols.map Column.name).Nodup → foxAlter cols cs = some r →
    (r.map Column.name).Nodup ∧ r.length + (drops cs).length = cols.length + (adds cs).length ∧
    (drops cs = [] → r = cols ++ (adds cs).map fun p => columnOf p.1 p.2) ∧
    (adds cs = [] → r = cols.filter fun c => c.name ∉ (drops cs).map lower)
  | [], cols, r, hn, h => by
    cases h
    refine ⟨hn, rfl, by simp [adds], fun _ => ?_⟩
    rw [List.filter_eq_self.mpr]; simp [drops]
  | c :: cs, cols, r, hn, h => by
    simp only [foxAlter] at h
    cases hs : step cols c with
    | none => rw [hs] at h; cases h
    | some cols' =>
      rw [hs] at h
      have hn' := step_nodup hn c hs
      obtain ⟨ih1, ih2, ih3, ih4⟩ := alter_facts cs cols' r hn' h
      refine ⟨ih1, ?_⟩
      cases c with
      | add f l =>
        simp only [step] at hs
        split at hs
        · cases hs
        · cases hs
          have ha : adds (.add f l :: cs) = (f, l) :: adds cs := rfl
          have hd : drops (.add f l :: cs) = drops cs := rfl
          rw [ha, hd]
          simp only [List.length_append, List.length_cons, List.length_nil] at ih2 ⊢
          refine ⟨by omega, fun h0 => ?_, fun h0 => (by cases h0)⟩
          rw [ih3 h0]; simp
      | drop x =>
        simp only [step] at hs
        split at hs
        · rename_i hx
          cases hs
          have ha : adds (.drop x :: cs) = adds cs := rfl
          have hd : drops (.drop x :: cs) = x :: drops cs := rfl
          rw [ha, hd]
          have := filter_length hn hx
          refine ⟨by simp only [List.length_cons]; omega, fun h0 => (by cases h0), fun h0 => ?_⟩
          rw [ih4 h0, List.filter_filter]
          apply List.filter_congr
          intro c _
          simp only [List.map_cons, List.mem_cons, not_or]
          by_cases h1 : c.name = lower x <;> simp [h1]
        · cases hs
      | change x =>
        simp only [step] at hs
        split at hs
        · cases hs
          exact ⟨ih2, ih3, ih4⟩
        · cases hs

theorem fields_of (cs : List Change) : (cs.map Change.clause).filterMap Clause.field? = (adds cs).map Prod.fst := by
  induction cs with
  | nil => rfl
  | cons c cs ih =>
    cases c with
    | add f l => exact congrArg (f :: ·) ih
    | drop x => exact ih
    | change x => exact ih

theorem names_of (cs : List Change) : (cs.map Change.clause).filterMap Clause.name? = named cs := by
  induction cs with
  | nil => rfl
  | cons c cs ih =>
    cases c with
    | add f l => exact ih
    | drop x => exact congrArg (x :: ·) ih
    | change x => exact congrArg (x :: ·) ih

theorem mem_adds {cs : List Change} {p : Field × Char} (h : p ∈ adds cs) : .add p.1 p.2 ∈ cs := by
  simp only [adds, List.mem_filterMap] at h
  obtain ⟨c, hc, he⟩ := h
  cases c <;> simp at he
  subst he; exact hc

theorem mem_named {cs : List Change} {x : Str} (h : x ∈ named cs) : .drop x ∈ cs ∨ .change x ∈ cs := by
  simp only [named, List.mem_filterMap] at h
  obtain ⟨c, hc, he⟩ := h
  cases c <;> simp at he
  · exact .inl (he ▸ hc)
  · exact .inr (he ▸ hc)

theorem drops_named {cs : List Change} {x : Str} (h : x ∈ drops cs) : x ∈ named cs := by
  simp only [drops, named, List.mem_filterMap] at h ⊢
  obtain ⟨c, hc, he⟩ := h
  exact ⟨c, hc, by cases c <;> simp_all⟩

theorem adds_or_named {cs : List Change} (h : cs ≠ []) (ha : adds cs = []) : named cs ≠ [] := by
  cases cs with
  | nil => exact absurd rfl h
  | cons c cs => cases c <;> simp_all [adds, named]

theorem named_present : ∀ (cs : List Change) (cols r : List Column), adds cs = [] → foxAlter cols cs = some r → ∀ x ∈ named cs, lower x ∈ cols.map Column.name
  | [], _, _, _, _, x, hx => by simp [named] at hx
  | c :: cs, cols, r, ha, h, x, hx => by
    simp only [foxAlter] at h
    cases hs : step cols c with
    | none => rw [hs] at h; cases h
    | some cols' =>
      rw [hs] at h
      have ih := named_present cs cols' r
      cases c with
      | add f l => cases ha
      | drop y =>
        simp only [step] at hs
        split at hs
        · rename_i hy
          cases hs
          have hx' : x = y ∨ x ∈ named cs := by simpa [named] using hx
          rcases hx' with rfl | hx'
          · exact hy
          · have := ih ha h x hx'
            exact (List.filter_sublist.map _).subset this
        · cases hs
      | change y =>
        simp only [step] at hs
        split at hs
        · rename_i hy
          cases hs
          have hx' : x = y ∨ x ∈ named cs := by simpa [named] using hx
          rcases hx' with rfl | hx'
          · exact hy
          · exact ih ha h x hx'
        · cases hs

end CreateTableAux

/-- C129, exactly: ALTER TABLE leaves the columns of FoxPro if and only if it only adds columns (and alters others), or drops exactly one
column, which the first clause names.  So all other columns to drop stay, and ALTER TABLE with ALTER COLUMN only drops the column. -/
theorem C129_alter_iff (accepts : Char → Nat → Bool) (ha : Agrees accepts) (cols r : List Column) (cs : List Change) (hne : cs ≠ [])
    (hn : (cols.map Column.name).Nodup) (hf : ∀ c ∈ cs, Fine accepts c) (hr : foxAlter cols cs = some r) :
    alter accepts cols (cs.map Change.clause) = some r ↔
      (adds cs ≠ [] ∧ drops cs = []) ∨ (adds cs = [] ∧ ∃ x y, drops cs = [x] ∧ (named cs).head? = some y ∧ lower y = lower x) := by
  obtain ⟨h1, h2, h3, h4⟩ := alter_facts cs cols r hn hr
  simp only [alter, fields_of, names_of]
  by_cases hadd : adds cs = []
  · obtain ⟨y, ys, hy⟩ := List.exists_cons_of_ne_nil (adds_or_named hne hadd)
    have hyc : lower y ≠ "class".toList := by
      rcases mem_named (cs := cs) (x := y) (by rw [hy]; exact List.mem_cons_self) with h | h <;> exact hf _ h
    have hid : identifier y = lower y := by simp only [identifier, if_neg hyc]
    have hmem := named_present cs cols r hadd hr y (by rw [hy]; exact List.mem_cons_self)
    simp only [hadd, List.map_nil, ne_eq, not_true_eq_false, if_false, false_and, false_or, true_and, hy, hid, deleteField, if_pos hmem,
      Option.some.injEq, List.head?_cons]
    have hr4 := h4 hadd
    have hl := filter_length hn hmem
    constructor
    · intro he
      have hd1 : (drops cs).length = 1 := by
        have hlen : (cols.filter fun c => c.name ≠ lower y).length = r.length := congrArg List.length he
        rw [hadd] at h2
        simp only [List.length_nil] at h2
        omega
      obtain ⟨x, hx⟩ := List.length_eq_one_iff.mp hd1
      refine ⟨x, y, hx, rfl, ?_⟩
      apply Decidable.byContradiction
      intro hxy
      obtain ⟨c, hc, hcn⟩ := List.mem_map.mp hmem
      have : c ∈ r := by rw [hr4]; simp [hc, hx, hcn, hxy]
      rw [← he] at this
      simp [hcn] at this
    · rintro ⟨x, y', hx, rfl, hxy⟩
      rw [hr4, hx]
      simp [hxy]
  · have hcol := (C129_columns_iff accepts ha (adds cs) hadd fun p hp => (hf _ (mem_adds hp)).1).mpr fun p hp => (hf _ (mem_adds hp)).2
    have hm : (adds cs).map Prod.fst ≠ [] := by simpa using hadd
    rw [if_pos hm]
    simp only [addFields, hcol, hadd, ne_eq, not_false_eq_true, true_and, false_and, or_false]
    constructor
    · intro he
      split at he
      · have := congrArg List.length (Option.some.inj he)
        simp only [List.length_append, List.length_map] at this
        exact List.length_eq_zero_iff.mp (by omega)
      · cases he
    · intro hd
      rw [← h3 hd, if_pos h1]

namespace CreateTableDemo
def cols : List Column := [⟨"name".toList, 'C', 50, 0⟩, ⟨"st".toList, 'C', 2, 0⟩]
end CreateTableDemo

open CreateTableDemo in
example : alter accepts cols [.add ⟨"N".toList, "N".toList, some [5, 0]⟩] = some (cols ++ [⟨"n".toList, 'N', 5, 0⟩]) ∧
    alter accepts cols [.change "ST".toList] = some [⟨"name".toList, 'C', 50, 0⟩] ∧ foxAlter cols [.change "ST".toList] = some cols ∧
    alter accepts cols [.drop "ST".toList, .drop "NAME".toList] = some [⟨"name".toList, 'C', 50, 0⟩] ∧
    foxAlter cols [.drop "ST".toList, .drop "NAME".toList] = some [] := by
  decide +kernel

/-- C129: dropping a column that the table does not have is an error, as in FoxPro. -/
theorem C129_drop_missing (accepts : Char → Nat → Bool) (cols : List Column) (x : Str) (hx : lower x ≠ "class".toList)
    (hm : lower x ∉ cols.map Column.name) : alter accepts cols [(Change.drop x).clause] = none ∧ foxAlter cols [.drop x] = none := by
  have hid : identifier x = lower x := by simp only [identifier, if_neg hx]
  constructor
  · show alter accepts cols [Clause.drop x] = none
    simp only [alter, List.filterMap, Clause.field?, Clause.name?, ne_eq, not_true_eq_false, if_false, deleteField, hid, if_neg hm]
  · simp only [foxAlter, CreateTableSpec.step, if_neg hm]

open CreateTableDemo in
example : alter accepts cols [.drop "ZIP".toList] = none ∧ foxAlter cols [.drop "ZIP".toList] = none := by decide +kernel

/-- C129: a table that is not open cannot be altered. -/
theorem C129_alter_closed_fails (accepts : Char → Nat → Bool) (w : World ρ) (name : Str) (cs : List Clause) (hne : name ≠ [])
    (hu : used w.db (.str name) = false) : (alterTable accepts w name cs).1 = w ∧ (alterTable accepts w name cs).2 = some .notOpen := by
  have : tableInfo w.db (.str name) = .error .notOpen := by
    cases name with
    | nil => exact absurd rfl hne
    | cons c name =>
      simp only [used, tableInfo, Model.Database.getWorkarea] at hu ⊢
      cases hf : Model.Database.findAlias w.db.areas (c :: name) with
      | none => rfl
      | some i => rw [hf] at hu; cases hu
  simp [alterTable, this]

open CreateTableDemo in
example : used busy.db (.str "other".toList) = false ∧ (alterTable accepts busy "report".toList [.drop "NAME".toList]).2 = none := by decide +kernel

end Props
