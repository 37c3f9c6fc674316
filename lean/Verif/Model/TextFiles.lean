/-!
# Texts in files, lists of files and the call stack

`strtofile` and `filetostr` (vfpfunc.py 1201-1203, 1470-1489), SYS(2000) (1588-1608) and `program`
(1397-1410), on Python 3.
-/
namespace Model.TextFiles

/-- Text as a list of characters; a Python `str` at vfpfunc.py:1201-1203, 1470-1489. -/
abbrev Str := List Char
/-- The contents of a file, vfpfunc.py:1201-1203, 1470-1489 -/
abbrev Bytes := List Nat

/-- The contents of the files that exist. vfpfunc.py:1201-1203, 1470-1489 -/
abbrev Disk := Str → Option Bytes

/-- One character in UTF-8, as `str.encode('utf-8')`. vfpfunc.py:1470-1489 -/
def utf8Char (c : Char) : Bytes :=
  let n := c.toNat
  if n < 128 then [n]
  else if n < 2048 then [192 + n / 64, 128 + n % 64]
  else if n < 65536 then [224 + n / 4096, 128 + n / 64 % 64, 128 + n % 64]
  else [240 + n / 262144, 128 + n / 4096 % 64, 128 + n / 64 % 64, 128 + n % 64]

/-- A 16-bit number, low byte first. -/
def word (n : Nat) : Bytes := [n % 256, n / 256]

/-- One character in UTF-16. -/
def utf16Char (c : Char) : Bytes :=
  let n := c.toNat
  if n < 65536 then word n else word (55296 + (n - 65536) / 1024) ++ word (56320 + (n - 65536) % 1024)

/-- vfpfunc.py:1470-1489 -/
def utf8 (s : Str) : Bytes := s.flatMap utf8Char

/-- `str.encode('utf-16')` on a machine with the low byte first: a byte order mark is put in front. -/
def utf16 (s : Str) : Bytes := word 65279 ++ s.flatMap utf16Char

/-- The text that `strtofile` writes: bytes, or for the flags 0 and 1 still a `str`. vfpfunc.py:1470-1489 -/
inductive Output
  | bytes (b : Bytes)
  | text (s : Str)

/-- vfpfunc.py 1477-1482. -/
def output (s : Str) (flag : Int) : Output :=
  if flag = 2 then .bytes (utf16 s) else if flag = 4 then .bytes ([239, 187, 191] ++ utf8 s) else .text s

/-- vfpfunc.py:1470-1489 -/
def setFile (d : Disk) (name : Str) (b : Bytes) : Disk := fun f => if f = name then some b else d f

/-- What `open(filename, mode)` does to the file: `wb` empties or creates it, `ab` creates it if there is
none; then what is behind is `before ++ written`. vfpfunc.py:1470-1489 -/
def opened (d : Disk) (name : Str) (append : Bool) : Bytes := if append then (d name).getD [] else []

/-- `strtofile`, vfpfunc.py 1470-1489: the returned number of bytes and the files afterwards; `none` is the
exception for an invalid flag. `can` tells whether the file can be opened for writing. `write` of a `str` to a
file that was opened for bytes is a TypeError, which is caught. -/
def strtofile (can : Str → Bool) (s : Str) (name : Str) (flag : Int) (d : Disk) : Option (Int × Disk) :=
  if flag = 0 ∨ flag = 1 ∨ flag = 2 ∨ flag = 4 then
    if can name then
      match output s flag with
      | .bytes b => some (b.length, setFile d name (opened d name (flag = 1) ++ b))
      | .text _ => some (0, setFile d name (opened d name (flag = 1)))
    else some (0, d)
  else none

/-- What `read` gives: a `str` if the file was opened as a text, else `bytes`. vfpfunc.py:1201-1203 -/
def readFile (locale : Bytes → Option Str) (binary : Bool) (b : Bytes) : Option Output :=
  if binary then some (.bytes b) else (locale b).map .text

/-- `.decode('ISO-8859-1')`, which only `bytes` have. -/
def decodeLatin : Output → Option Str
  | .bytes b => some (b.map Char.ofNat)
  | .text _ => none

/-- `filetostr`, vfpfunc.py 1201-1203: `open(filename)` opens a text; `locale` reads bytes as characters,
`none` is an exception. -/
def filetostr (locale : Bytes → Option Str) (d : Disk) (name : Str) : Option Str :=
  (d name).bind fun b => (readFile locale false b).bind decodeLatin

/-! ### SYS(2000) -/

/-- `SYS2000iter`: the files that the running search has not returned yet; `none` before the first search. -/
abbrev Search := Option (List Str)

/-- `vfp_sys(2000, skel, next)`, vfpfunc.py 1595-1608. `glob` gives the files that match a skeleton; it is taken
to be evaluated at once, although `iglob` is lazy. -/
def sys2000 (glob : Str → List Str) (skel : Str) (next : Bool) (st : Search) : Str × Search :=
  match (if next then st else some (glob skel)) with
  | some (f :: fs) => (f, some fs)
  | some [] => ([], some [])
  | none => ([], none)

/-! ### PROGRAM() -/

/-- The names of the running Python functions, outermost first: the module of the main program, and for every
procedure the function `scoper` of its decorator (vfpfunc.py 1727-1771) and its own. -/
def trace (procs : List String) : List String := "<module>" :: procs.flatMap fun p => ["scoper", p]

/-- vfpfunc.py:1397-1410 -/
inductive Program
  | name (s : String)
  | level (n : Int)
  deriving DecidableEq

/-- The name of a frame, vfpfunc.py 1407-1410; the main program is never called `_program_main`, because
`visitPrg` renames it to `MAIN` (convert visitor 173-174). -/
def frameName (s : String) : Program := .name (s.map Char.toUpper)

/-- `program`, vfpfunc.py 1397-1410, called by the last of the procedures; `none` for `level` is a call without
an argument. -/
def program (procs : List String) (level : Option Int) : Program :=
  match level with
  | none => frameName ((trace procs).getLast?.getD "")
  | some n =>
    if n < 0 then .level ((trace procs).length - 1)
    else
      let k := if n = 0 then 1 else n.toNat
      if (trace procs).length ≤ k then .name "" else frameName ((trace procs).getD k "")

end Model.TextFiles
