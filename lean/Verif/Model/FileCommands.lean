import Verif.Py.Dict
/-!
# COPY FILE, RENAME, ERASE, MKDIR, RMDIR, CHDIR

`visitDeleteFile`, `visitCopyMoveFile`, `visitChMkRmDir` and `visitSpecialExpr`,
vfp2py_convert_visitor.py:1124-1154, and the functions of `os` and `shutil` they call.

Simplifications: paths are absolute, a list of names; links, rights and full disks are left out;
`ERASE ?` and RECYCLE are not modelled.
-/
namespace Model.FileCommands

/-- Text as a list of characters; a Python `str` at vfp2py_convert_visitor.py:1124-1154. -/
abbrev Str := List Char
/-- The argument of the calls of vfp2py_convert_visitor.py:1124-1150 -/
abbrev Path := List Str

/-- What the calls of vfp2py_convert_visitor.py:1124-1150 work on -/
inductive Node where
  | file (content : Str)
  | dir
  deriving DecidableEq, Repr

/-- A file system: what there is below the root, and the current folder.  `key` is how the system
compares paths: as they are, or (Windows) without regard to case. What the calls of vfp2py_convert_visitor.py:1124-1150 work on -/
structure Disk where
  nodes : Py.Dict Path Node
  cwd : Path
  deriving Repr

open Py (Dict)

/-- The name given to a command: a literal or another expression with its value. vfp2py_convert_visitor.py:1152-1154 -/
inductive Arg where
  | literal (p : Path)
  | expr (p : Path)
  deriving DecidableEq, Repr

/-- vfp2py_convert_visitor.py:1152-1154 -/
def lower (p : Path) : Path := p.map fun s => s.map Char.toLower

/-- `visitSpecialExpr`, 1152-1154: a string constant in lower case, code as it is. -/
def Arg.get : Arg → Path
  | .literal p => lower p
  | .expr p => p

/-- vfp2py_convert_visitor.py:1124-1150 -/
inductive Cmd where
  | copyFile (a b : Arg)
  | rename (a b : Arg)
  | erase (a : Arg)
  | mkdir (a : Arg)
  | rmdir (a : Arg)
  | chdir (a : Arg)
  deriving DecidableEq, Repr

/-- `os.path.isdir`. Part of the functions called by vfp2py_convert_visitor.py:1135-1150 -/
def Disk.isdir (d : Disk) (p : Path) : Bool := p = [] || Dict.get d.nodes p = some .dir
/-- `os.path.exists`. Part of the functions called by vfp2py_convert_visitor.py:1135-1150 -/
def Disk.exists_ (d : Disk) (p : Path) : Bool := p = [] || Dict.has d.nodes p

/-- `os.remove(p)`; `none`: an exception. vfp2py_convert_visitor.py:1124-1133 -/
def remove (d : Disk) (p : Path) : Option Disk :=
  match Dict.get d.nodes p with
  | some (.file _) => if p = [] then none else some { d with nodes := Dict.del d.nodes p }
  | _ => none

/-- `os.mkdir(p)`. vfp2py_convert_visitor.py:1143-1150 -/
def mkdir (d : Disk) (p : Path) : Option Disk :=
  if d.exists_ p then none
  else if d.isdir p.dropLast then some { d with nodes := Dict.set d.nodes p .dir }
  else none

/-- `os.rmdir(p)`: an empty folder. vfp2py_convert_visitor.py:1143-1150 -/
def rmdir (d : Disk) (p : Path) : Option Disk :=
  if p ≠ [] ∧ d.isdir p ∧ ∀ q ∈ Dict.keys d.nodes, q = [] ∨ q.dropLast ≠ p then some { d with nodes := Dict.del d.nodes p }
  else none

/-- `os.chdir(p)`. vfp2py_convert_visitor.py:1143-1150 -/
def chdir (d : Disk) (p : Path) : Option Disk := if d.isdir p then some { d with cwd := p } else none

/-- `shutil.copyfile(a, b)`. vfp2py_convert_visitor.py:1135-1141 -/
def copyfile (d : Disk) (a b : Path) : Option Disk :=
  match Dict.get d.nodes a with
  | some (.file c) =>
    if a = b then none
    else if d.isdir b then none
    else if d.isdir b.dropLast then some { d with nodes := Dict.set d.nodes b (.file c) }
    else none
  | _ => none

/-- `os.rename(a, b)` with the copy that `shutil.move` makes where it is refused. vfp2py_convert_visitor.py:1135-1141 -/
def renameTo (d : Disk) (a b : Path) : Option Disk :=
  match Dict.get d.nodes a with
  | none => none
  | some (.file c) =>
    if d.isdir b.dropLast then
      if a = b then some d
      else some { d with nodes := Dict.set (Dict.del d.nodes a) b (.file c) }
    else none
  | some .dir =>
    if d.exists_ b || a.isPrefixOf b || !d.isdir b.dropLast then none
    else some { d with nodes := d.nodes.map fun e => if a.isPrefixOf e.1 then (b ++ e.1.drop a.length, e.2) else e }

/-- `shutil.move(a, b)`: into `b` if it is a folder. vfp2py_convert_visitor.py:1135-1141 -/
def move (d : Disk) (a b : Path) : Option Disk :=
  if d.isdir b then
    let target := b ++ a.getLast?.toList
    if d.exists_ target then none else renameTo d a target
  else renameTo d a b

/-- Run the converted command on a system that compares paths by `key`. vfp2py_convert_visitor.py:1124-1150 -/
def run (key : Path → Path) (d : Disk) : Cmd → Option Disk
  | .copyFile a b => copyfile d (key a.get) (key b.get)
  | .rename a b => move d (key a.get) (key b.get)
  | .erase a => remove d (key a.get)
  | .mkdir a => mkdir d (key a.get)
  | .rmdir a => rmdir d (key a.get)
  | .chdir a => chdir d (key a.get)

end Model.FileCommands
