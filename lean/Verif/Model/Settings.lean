import Verif.Py.Basic
/-!
# Model of SET commands and of the date arithmetic (vfp2py/vfpfunc.py)

Strings are character lists, `lower`/`upper` act on ASCII letters (no other character becomes one of
the letters compared here).
-/
namespace Model.Settings

/-- Text as a list of characters; a Python `str` at vfpfunc.py:1642-1683. -/
abbrev Str := List Char

/-- The values kept by settings. vfpfunc.py:28-46 -/
inductive Val where
  | str (s : Str)
  | int (n : Int)
  deriving DecidableEq, Repr

/-- `SET_PROPS`: the values of a word; the outer `none` is a missing key, the inner one the
value `None`. vfpfunc.py:28-46 -/
abbrev State := Str → Option (Option (List Val))

/-- `str.lower()`, vfpfunc.py:1642-1683 -/
def lower (s : Str) : Str := s.map Char.toLower
/-- `str.upper()`, vfpfunc.py:1642-1683 -/
def upper (s : Str) : Str := s.map Char.toUpper

/-- `SET_PROPS`, vfpfunc.py:28-46. -/
def initial : State := fun w =>
  let str (s : String) : Val := .str s.toList
  if w = "bell".toList then some (some [str "ON", str ""])
  else if w = "century".toList then some (some [str "OFF", .int 19, .int 67, .int 2029])
  else if w = "compatible".toList then some (some [str "OFF", str "PROMPT"])
  else if w = "cursor".toList then some (some [str "ON"])
  else if w = "deleted".toList then some (some [str "OFF"])
  else if w = "escape".toList then some (some [str "OFF"])
  else if w = "exact".toList then some (some [str "OFF"])
  else if w = "index".toList then some (some [str ""])
  else if w = "multilocks".toList then some (some [str "OFF"])
  else if w = "near".toList then some (some [str "OFF"])
  else if w = "notify".toList then some (some [str "ON", str "ON"])
  else if w = "procedure".toList then some none
  else if w = "refresh".toList then some (some [.int 0, .int 5])
  else if w = "status".toList then some (some [str "OFF"])
  else if w = "status bar".toList then some (some [str "ON"])
  else if w = "talk".toList then some (some [str "ON"])
  else if w = "unique".toList then some (some [str "OFF"])
  else none

/-- Raised in vfpfunc.py:1642-1683 -/
inductive Err where
  | keyError | valueError | typeError | indexError | attributeError
  deriving DecidableEq, Repr

/-- The keyword arguments that are looked at. vfpfunc.py:1642-1683 -/
structure Kw where
  century : Option Val := none
  rollover : Option Val := none
  cursor : Option Val := none

/-- The words of vfpfunc.py:1674. -/
def switchWords : List Str :=
  ["cursor", "deleted", "escape", "exact", "multilocks", "near", "status", "status bar", "talk",
    "unique"].map String.toList

/-- `settings[i] = v`; `none` is IndexError. vfpfunc.py:1642-1683 -/
def setAt (l : List Val) (i : Nat) (v : Val) : Except Err (List Val) :=
  if i < l.length then .ok (l.set i v) else .error .indexError

/-- ON/OFF settings, vfpfunc.py:1674-1677: `args[0]` must be a string reading on or off. -/
def setSwitch (settings args : List Val) : Except Err (List Val) :=
  match args with
  | [] => .error .indexError
  | .int _ :: _ => .error .attributeError
  | .str s :: _ =>
    if lower s ∉ ["on".toList, "off".toList] then .error .valueError
    else setAt settings 0 (.str (upper s))

/-- vfpfunc.py:1647-1653. -/
def setBell (settings args : List Val) : Except Err (List Val) :=
  match args with
  | [] => .error .indexError
  | .int _ :: _ => .error .attributeError
  | .str s :: rest =>
    if lower s ∉ ["to".toList, "on".toList, "off".toList] then .error .valueError
    else if s = "TO".toList then
      setAt settings 1 (match rest with
        | [] => .str []
        | v :: _ => v)
    else setAt settings 0 (.str (upper s))

/-- `if v is given: settings[i] = v`. vfpfunc.py:1642-1683 -/
def setIf (settings : List Val) (i : Nat) (v : Option Val) : Except Err (List Val) :=
  match v with
  | none => .ok settings
  | some v => setAt settings i v

/-- vfpfunc.py:1654-1660. -/
def setCentury (settings args : List Val) (kw : Kw) : Except Err (List Val) :=
  match setIf settings 0 args.head? with
  | .error e => .error e
  | .ok s =>
    match setIf s 1 kw.century with
    | .error e => .error e
    | .ok s => setIf s 2 kw.rollover

/-- vfpfunc.py:1661-1667; also the list as it is left when an exception is raised, because it is
changed in place. -/
def setCompatible (settings args : List Val) : List Val × Option Err :=
  match setSwitch settings args with
  | .error e => (settings, some e)
  | .ok st =>
    match args with
    | _ :: .int _ :: _ => (st, some .attributeError)
    | _ :: .str t :: _ =>
      if lower t ∉ ["prompt".toList, "noprompt".toList] then
        match setAt st 1 (.str (upper t)) with
        | .ok st => (st, none)
        | .error e => (st, some e)
      else (st, none)
    | _ => (st, none)

/-- vfpfunc.py:1668-1672. -/
def setNotify (settings args : List Val) (kw : Kw) : Except Err (List Val) :=
  match kw.cursor with
  | some v => setAt settings 1 v
  | none =>
    match args with
    | [] => .error .indexError
    | v :: _ => setAt settings 0 v

/-- The branches of `set`, vfpfunc.py:1647-1677: the values of the setting afterwards, and the
exception raised.  `SET PROCEDURE` (1678-1681) loads modules and is not modelled here. -/
def newSetting (w : Str) (settings args : List Val) (kw : Kw) : List Val × Option Err :=
  let lift (r : Except Err (List Val)) : List Val × Option Err :=
    match r with
    | .ok s => (s, none)
    | .error e => (settings, some e)
  if w = "bell".toList then lift (setBell settings args)
  else if w = "century".toList then lift (setCentury settings args kw)
  else if w = "compatible".toList then setCompatible settings args
  else if w = "notify".toList then lift (setNotify settings args kw)
  else if w ∈ switchWords then lift (setSwitch settings args)
  else if w = "index".toList ∨ w = "refresh".toList then (args, none)
  else (settings, none)

/-- `set(word, *args, set_value=True, **kw)`, vfpfunc.py:1642-1683. -/
def setCmd (st : State) (word : Str) (args : List Val) (kw : Kw) : State × Option Err :=
  match st (lower word) with
  | none => (st, some .keyError)
  | some none => (st, none) -- `procedure`: its modules are not modelled here
  | some (some settings) =>
    let r := newSetting (lower word) settings args kw
    (fun x => if x = lower word then some (some r.1) else st x, r.2)

/-- `set(word)` and `set(word, i)` for `i ≥ 0`, vfpfunc.py:1643-1646. -/
def query (st : State) (word : Str) (i : Nat) : Except Err Val :=
  match st (lower word) with
  | none => .error .keyError
  | some none => .error .typeError
  | some (some settings) =>
    match settings[i]? with
    | some v => .ok v
    | none => .error .indexError

/-! ## Dates -/

/-- `dow_fix`, vfpfunc.py:1174-1175; `weekday` is Python's (Monday = 0). -/
def dowFix (weekday firstday : Int) : Int :=
  (weekday + 2 - (if firstday = 0 then 1 else firstday)) % 7 + 1

/-- `date.weekday()` of the day with ordinal `n` (day 1 is 0001-01-01, a Monday). -/
def weekdayOf (n : Int) : Int := (n + 6) % 7

/-- `quarter`, vfpfunc.py:1412-1416, by the month of the date; `none` is an empty date. -/
def quarter (month : Option Int) (start : Int) : Int :=
  match month with
  | none => 0
  | some m =>
    let k := (m - start) % 12
    (k - k % 3) / 3 + 1

end Model.Settings
