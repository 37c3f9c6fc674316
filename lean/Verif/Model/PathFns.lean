/-!
# Functions on names of files

JUSTDRIVE, JUSTPATH, JUSTFNAME, JUSTSTEM, JUSTEXT, FORCEEXT and ADDBS, vfp2py_convert_visitor.py
943-960, become functions of `os.path`, which is `ntpath` on Windows and `posixpath` elsewhere.

Names of shares (two slashes at the beginning) are not modelled.
-/
namespace Model.PathFns

/-- Text as a list of characters; a Python `str` at vfp2py_convert_visitor.py:943-960. -/
abbrev Str := List Char

/-- `os.name`, which decides what `os.path` is in the code of vfp2py_convert_visitor.py:943-960 -/
inductive OS where
  | windows
  | posix
  deriving DecidableEq, Repr

/-- `os.sep` and `os.altsep`. Part of `os.path`, called by the code of vfp2py_convert_visitor.py:943-960 -/
def isSep : OS → Char → Bool
  | .windows, c => c = '\\' || c = '/'
  | .posix, c => c = '/'

/-- `os.sep`; part of `os.path`, called by the code of vfp2py_convert_visitor.py:943-960 -/
def sep : OS → Char
  | .windows => '\\'
  | .posix => '/'

/-- `os.path.splitdrive`. Part of `os.path`, called by the code of vfp2py_convert_visitor.py:943-960 -/
def splitdrive : OS → Str → Str × Str
  | .windows, c :: ':' :: s => ([c, ':'], s)
  | _, p => ([], p)

/-- The part behind the last separator, and the part up to and with it.
Part of `os.path`, called by the code of vfp2py_convert_visitor.py:943-960 -/
def tail (os : OS) (p : Str) : Str := (p.reverse.takeWhile fun c => !isSep os c).reverse
/-- Part of `os.path`, called by the code of vfp2py_convert_visitor.py:943-960 -/
def head (os : OS) (p : Str) : Str := (p.reverse.dropWhile fun c => !isSep os c).reverse
/-- `p.rstrip(seps)`. Part of `os.path`, called by the code of vfp2py_convert_visitor.py:943-960 -/
def rstripSep (os : OS) (p : Str) : Str := (p.reverse.dropWhile (isSep os)).reverse

/-- `os.path.basename`. Part of `os.path`, called by the code of vfp2py_convert_visitor.py:943-960 -/
def basename (os : OS) (p : Str) : Str := tail os (splitdrive os p).2

/-- `os.path.dirname`: `d + (head.rstrip(seps) or head)`.
Part of `os.path`, called by the code of vfp2py_convert_visitor.py:943-960 -/
def dirname (os : OS) (p : Str) : Str :=
  let h := head os (splitdrive os p).2
  (splitdrive os p).1 ++ if rstripSep os h = [] then h else rstripSep os h

/-- `os.path.splitext` (`genericpath._splitext`): at the last dot behind the last separator, if there is
another character than a dot between them. Part of `os.path`, called by the code of vfp2py_convert_visitor.py:943-960 -/
def splitext (os : OS) (p : Str) : Str × Str :=
  let ext := ((tail os p).reverse.takeWhile (· ≠ '.')).reverse
  match (tail os p).reverse.dropWhile (· ≠ '.') with
  | [] => (p, [])
  | _ :: stem => if stem.all (· = '.') then (p, []) else (head os p ++ stem.reverse, '.' :: ext)

/-- `os.path.join(p, '')`. Part of `os.path`, called by the code of vfp2py_convert_visitor.py:943-960 -/
def joinEmpty (os : OS) (p : Str) : Str :=
  let d := splitdrive os p
  d.1 ++ match d.2.getLast? with
    | none => []
    | some c => if isSep os c then d.2 else d.2 ++ [sep os]

/-- vfp2py_convert_visitor.py:943-960 -/
def lower (s : Str) : Str := s.map Char.toLower

/-- An argument: a literal, which is put into small letters while converting (line 944-945), or an
expression with this value. -/
inductive Arg where
  | literal (s : Str)
  | value (s : Str)
  deriving DecidableEq, Repr

/-- vfp2py_convert_visitor.py:943-960 -/
def Arg.get : Arg → Str
  | .literal s => lower s
  | .value s => s

/-- vfp2py_convert_visitor.py:950-957. -/
def justdrive (os : OS) (a : Arg) : Str := (splitdrive os a.get).1
/-- vfp2py_convert_visitor.py:943-960 -/
def justpath (os : OS) (a : Arg) : Str := dirname os a.get
/-- vfp2py_convert_visitor.py:943-960 -/
def justfname (os : OS) (a : Arg) : Str := basename os a.get
/-- vfp2py_convert_visitor.py:943-960 -/
def juststem (os : OS) (a : Arg) : Str := (splitext os (basename os a.get)).1
/-- vfp2py_convert_visitor.py:943-960 -/
def justext (os : OS) (a : Arg) : Str := (splitext os a.get).2.drop 1
/-- vfp2py_convert_visitor.py:943-960 -/
def forceext (os : OS) (a e : Arg) : Str := (splitext os a.get).1 ++ ['.'] ++ e.get
/-- vfp2py_convert_visitor.py:943-960 -/
def addbs (os : OS) (a : Arg) : Str := joinEmpty os a.get

end Model.PathFns
