import Verif.Model.Database
/-!
# What the database commands should do

Stated over plain lists of records.  From the model only the type `Scope` (the four scope words
with their numbers) and the record type `Rec` are used.
-/
namespace Spec.Database
open Model.Database (Scope Rec Str)

/-- Positions (from 0) of the records that a scope covers when the current record is at `cur`. -/
def scopeRange (scope : Scope) (cur len : Nat) : List Nat :=
  match scope with
  | .all => List.range len
  | .rest => List.range' cur (len - cur)
  | .next n => (List.range' cur (len - cur)).take n.toNat
  | .record n => if 1 ≤ n ∧ n ≤ len then [(n - 1).toNat] else []

/-- A condition on the record at a position. -/
def holds {ρ : Type} (c : Nat → ρ → Bool) (recs : List ρ) (k : Nat) : Bool :=
  match recs[k]? with
  | some r => c k r
  | none => false

/-- The records that a scoped command processes: those of the scope, in order, up to the first
that fails WHILE, and of these the ones that satisfy FOR. -/
def processed {ρ : Type} (scope : Scope) (forC whileC : Nat → ρ → Bool) (recs : List ρ) (cur : Nat) :
    List Nat :=
  ((scopeRange scope cur recs.length).takeWhile (holds whileC recs)).filter (holds forC recs)

/-- Change exactly the records at the given positions. -/
def changeAt {ρ : Type} (ks : List Nat) (act : Nat → ρ → ρ) (recs : List ρ) : List ρ :=
  recs.mapIdx fun k r => if k ∈ ks then act k r else r

/-- The scope of a command that is not given: the current record for DELETE, RECALL and REPLACE
without conditions, otherwise all records, or the rest with WHILE. -/
def defaultScope (single : Bool) (hasFor hasWhile : Bool) : Scope :=
  if hasWhile then .rest
  else if single && !hasFor then .next 1
  else .all

/-- The value of a field after an assignment. -/
def setField (x : Rec) (field : Str) (v : Int) : Rec :=
  { fields := fun f => if f = field then v else x.fields f, deleted := x.deleted }

/-! ## Work areas: numbered places, each free or holding one table

A table has the name it was opened by and an alias (empty when none was given); it can be
addressed by both.  Names are taken in lower case. -/

structure Areas where
  tabs : List (Option (Str × Str))
  cur : Nat

inductive Res where
  | done
  /-- the table is open already -/
  | refused
  /-- the alias belongs to another table -/
  | conflict
  | notOpen
  | full
  | noArea
  deriving DecidableEq, Repr

def known (n : Str) (t : Option (Str × Str)) : Bool :=
  match t with
  | some (file, alias) => decide (n = file) || decide (n = alias)
  | none => false

/-- Where the table of that name is. -/
def Areas.place (a : Areas) (n : Str) : Option Nat := a.tabs.findIdx? (known n)

/-- USE n IN 0 [ALIAS al] -/
def Areas.open_ (a : Areas) (n al : Str) : Areas × Res :=
  if (a.place n).isSome then (a, .refused)
  else if al ≠ [] ∧ (a.place al).isSome then (a, .conflict)
  else
    match a.tabs.findIdx? Option.isNone with
    | some i => ({ a with tabs := a.tabs.set i (some (n, al)) }, .done)
    | none => (a, .full)

/-- SELECT n -/
def Areas.select (a : Areas) (n : Str) : Areas × Res :=
  match a.place n with
  | some i => ({ a with cur := i }, .done)
  | none => (a, .notOpen)

/-- SELECT("n"): the number of the work area, 0 when the table is not open. -/
def Areas.number (a : Areas) (n : Str) : Nat :=
  match a.place n with
  | some i => i + 1
  | none => 0

/-- USE IN i: close work area number `i`, counted from 1; 0 stands for a free one. -/
def Areas.close (a : Areas) (i : Nat) : Areas × Res :=
  if i = 0 then (a, .done)
  else if i ≤ a.tabs.length then ({ a with tabs := a.tabs.set (i - 1) none }, .done)
  else (a, .noArea)

/-- CLOSE TABLES -/
def Areas.closeAll (a : Areas) : Areas := { a with tabs := a.tabs.map fun _ => none }

/-- No name belongs to two work areas. -/
def Areas.Distinct (a : Areas) : Prop :=
  ∀ (i j : Nat) ti tj n, a.tabs[i]? = some ti → a.tabs[j]? = some tj → n ≠ [] →
    known n ti = true → known n tj = true → i = j

end Spec.Database
