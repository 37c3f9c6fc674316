import Verif.Model.Database
import Verif.Py.Dict
/-!
# INDEX ON and SEEK

`index_on` and `seek` of vfpdatabase.py (279-282, 330-342); `visitSeekRecord`
(vfp2py_convert_visitor.py 1720-1730) passes the key and the name of an order on.

Of the package `dbf` is used: an index made by `create_index` gives with `search((key,))` the list of
the records whose key is equal to `key`, equal keys in the order of the records, and is kept up to
date when records change.  A key is a value of any type `κ`.
-/
namespace Model.Seek
open Model.Database Py

/-- The parts of `DatabaseWorkspace` used, vfpdatabase.py:12-23.  `search` is the generator
`seek`: the positions it still has to give. -/
structure Table (ρ κ : Type) where
  ws : WS ρ
  orders : Dict Str (ρ → κ)
  order : Option Str
  search : Option (List Nat)

variable {ρ κ : Type} [DecidableEq κ]

/-- The positions of the records with the key `k`. Part of the package `dbf`, called by vfpdatabase.py:330-341 -/
def matchesFrom (key : ρ → κ) (k : κ) : Nat → List ρ → List Nat
  | _, [] => []
  | i, r :: rs => if key r = k then i :: matchesFrom key k (i + 1) rs else matchesFrom key k (i + 1) rs

/-- `index_on`, vfpdatabase.py:279-282 (the order and the flags are not used there). -/
def indexOn (t : Table ρ κ) (name : Str) (key : ρ → κ) : Table ρ κ :=
  { t with orders := t.orders.set name key, order := some name }

/-- The generator used, vfpdatabase.py:332-333: `key_index` is the order that the command names; it
is only tested.  The KeyError for a table without an order is given as `indexError`. -/
def searchFor (t : Table ρ κ) (k : κ) (tag : Option Str) : Except Err (List Nat) :=
  match t.search, tag with
  | some ps, none => .ok ps
  | _, _ =>
    match t.order.bind t.orders.get with
    | some key => .ok (matchesFrom key k 0 t.ws.recs)
    | none => .error .indexError

/-- `seek`, vfpdatabase.py:330-342. -/
def seek (t : Table ρ κ) (k : κ) (tag : Option Str) : Table ρ κ × Option Err :=
  match searchFor t k tag with
  | .error e => (t, some e)
  | .ok [] => ({ t with search := some [], ws := { t.ws.bottom with found := false } }, none)
  | .ok (p :: ps) =>
    match t.ws.goto p with
    | .error e => ({ t with search := some ps }, some e)
    | .ok w => ({ t with search := some ps, ws := { w with found := true } }, none)

/-- SEEK commands without the name of an order, one after the other. vfpdatabase.py:330-341 -/
def seeks (t : Table ρ κ) : List κ → Table ρ κ × Option Err
  | [] => (t, none)
  | k :: ks =>
    match seek t k none with
    | (t', none) => seeks t' ks
    | (t', some e) => (t', some e)

end Model.Seek
