/-!
# MESSAGEBOX

Source: `/repo/vfp2py/vfpfunc.py`, `messagebox` (1281-1389).

`QMessageBox` itself is not modelled: a box is what it is told to show, and the button that the user
presses (or that the time runs out) is given.  `int(flags)` is given as an integer; `flags & 1023` on
integers of any sign is the remainder.  Without PySide the name `QtGui` does not exist.
-/
namespace Model.MessageBox

/-- Text as a list of characters; a Python `str` at vfpfunc.py:1281-1389. -/
abbrev Str := List Char

/-- Raised in vfpfunc.py:1281-1389 -/
inductive Err where
  | nameError
  | typeError
  | valueError
  | keyError
  deriving DecidableEq, Repr

/-- Values of arguments; `text` are strings, `other` are dates, logical values, objects, ... The arguments of vfpfunc.py:1281 -/
inductive Val where
  | none
  | text (s : Str)
  | num (n : Int)
  | other
  deriving DecidableEq, Repr

/-- vfpfunc.py:1281-1389 -/
inductive Button where
  | ok | cancel | abort | retry | ignore | yes | no
  deriving DecidableEq, Repr

/-- vfpfunc.py:1281-1389 -/
inductive Icon where
  | noIcon | critical | question | warning | information
  deriving DecidableEq, Repr

/-- What the user sees: `closes` is the time in milliseconds after which the box closes. vfpfunc.py:1281-1389 -/
structure Box where
  message : Str
  title : Str
  buttons : List Button
  icon : Icon
  default : Option Button
  escape : Button
  closes : Option Int
  deriving DecidableEq, Repr

/-- vfpfunc.py:1338-1345. -/
def buttonsOf : Nat → Option (List Button × Button)
  | 0 => some ([.ok], .ok)
  | 1 => some ([.ok, .cancel], .cancel)
  | 2 => some ([.abort, .retry, .ignore], .ignore)
  | 3 => some ([.yes, .no, .cancel], .cancel)
  | 4 => some ([.yes, .no], .no)
  | 5 => some ([.retry, .cancel], .cancel)
  | _ => none

/-- vfpfunc.py:1351-1357. -/
def iconOf (k : Nat) : Option Icon :=
  if k = 0 then some .noIcon
  else if k = 16 then some .critical
  else if k = 32 then some .question
  else if k = 48 then some .warning
  else if k = 64 then some .information
  else none

/-- The flags and the title, vfpfunc.py:1324-1335: the two arguments come in either order. -/
def arguments (arg1 arg2 : Val) : Val × Val :=
  match arg1 with
  | .none => (.num 0, .text "vfp2py".toList)
  | .text t => (if arg2 = .none then .num 0 else arg2, .text t)
  | v => (v, if arg2 = .none then .text "vfp2py".toList else arg2)

/-- `int(flags) & 1023`, vfpfunc.py:1336; texts are not numbers here. -/
def flagsOf : Val → Except Err Nat
  | .num n => .ok (n % 1024).toNat
  | .text _ => .error .valueError
  | _ => .error .typeError

/-- `if timeout: ... timer.start(float(timeout)*1000)`, vfpfunc.py:1372-1377. -/
def closing : Option Int → Option Int
  | none => none
  | some t => if t = 0 then none else some (t * 1000)

/-- The box, vfpfunc.py:1324-1379. -/
def box (pyside : Bool) (msg arg1 arg2 : Val) (timeout : Option Int) : Except Err Box :=
  if pyside = false then .error .nameError
  else
    let a := arguments arg1 arg2
    match flagsOf a.1 with
    | .error e => .error e
    | .ok flags =>
      match buttonsOf (flags &&& 15) with
      | none => .error .keyError
      | some (bs, esc) =>
        match iconOf (flags &&& (15 <<< 4)) with
        | none => .error .keyError
        | some icon =>
          match msg, a.2 with
          | .text m, .text t =>
            .ok { message := m, title := t, buttons := bs, icon := icon, default := bs[Nat.min (bs.length - 1) (flags >>> 8)]?, escape := esc,
                  closes := closing timeout }
          | _, _ => .error .typeError

/-- The value, vfpfunc.py:1383-1391; `none`: the time has run out. -/
def result : Option Button → Int
  | none => -1
  | some .ok => 1
  | some .cancel => 2
  | some .abort => 3
  | some .retry => 4
  | some .ignore => 5
  | some .yes => 6
  | some .no => 7

end Model.MessageBox
