import Verif.Model.PathFns
/-!
# FILE, DIRECTORY and LOCFILE

FILE and DIRECTORY become `os.path.isfile` and `os.path.isdir`, vfp2py_convert_visitor.py:943-960; `locfile`,
vfpfunc.py:1263-1273.

A disk is given by the paths of its files and folders from the root; Windows does not distinguish capital and small
letters, other systems do.  Simplifications: one drive, no `..` in names, no links, names with a separator at the
end are not distinguished from those without, case is that of ASCII.  `os.path.abspath` is left out: the result of
LOCFILE is the path of the file from the root.
-/
namespace Model.FindFile
open Model.PathFns (Str OS isSep sep Arg basename)

/-- The disk with the current folder. Used by vfpfunc.py:1265-1272 -/
structure Disk where
  files : List (List Str)
  folders : List (List Str)
  cwd : List Str

/-- The parts of a path between separators. How the system reads paths, for vfpfunc.py:1265 -/
def parts (os : OS) : Str → List Str
  | [] => [[]]
  | c :: s => if isSep os c then [] :: parts os s else
    match parts os s with
    | [] => [[c]]
    | x :: xs => (c :: x) :: xs

/-- The path from the root; empty parts and `.` do not count. How the system reads paths, for vfpfunc.py:1265 -/
def resolve (os : OS) (cwd : List Str) (p : Str) : List Str :=
  let steps := (parts os p).filter fun x => !(x = [] || x = ['.'])
  match p with
  | [] => cwd
  | c :: _ => if isSep os c then steps else cwd ++ steps

/-- Whether two paths are the same for the system. For vfpfunc.py:1265 -/
def same : OS → List Str → List Str → Bool
  | .windows, a, b => a.map (·.map Char.toLower) = b.map (·.map Char.toLower)
  | .posix, a, b => a = b

/-- `os.path.isfile`, called by vfpfunc.py:1265, 1271 and the code of vfp2py_convert_visitor.py:948: the path of the
file. -/
def isfile (os : OS) (d : Disk) (p : Str) : Option (List Str) := d.files.find? (same os (resolve os d.cwd p))

/-- `os.path.isdir`, called by the code of vfp2py_convert_visitor.py:949 -/
def isdir (os : OS) (d : Disk) (p : Str) : Bool := d.folders.any (same os (resolve os d.cwd p))

/-- Raised by the code of vfp2py_convert_visitor.py:948-949 -/
inductive Err where
  | typeError
  deriving DecidableEq, Repr

/-- `FILE(name [, flag])`: all arguments are passed on to `os.path.isfile`. vfp2py_convert_visitor.py:943-948 -/
def file (os : OS) (d : Disk) (a : Arg) (flag : Option Int) : Except Err Bool :=
  match flag with
  | none => .ok (isfile os d a.get).isSome
  | some _ => .error .typeError

/-- `DIRECTORY(name [, flag])`. vfp2py_convert_visitor.py:943-949 -/
def directory (os : OS) (d : Disk) (a : Arg) (flag : Option Int) : Except Err Bool :=
  match flag with
  | none => .ok (isdir os d a.get)
  | some _ => .error .typeError

/-- `os.path.join(path, filename)` for a name without separator and drive, called by vfpfunc.py:1270 -/
def join (os : OS) (path name : Str) : Str :=
  match path.getLast? with
  | none => name
  | some c => if isSep os c then path ++ name else path ++ [sep os] ++ name

/-- What LOCFILE does. vfpfunc.py:1263-1273 -/
inductive Result where
  | found (path : List Str)
  /-- The dialog of `getfile`. -/
  | asks
  deriving DecidableEq, Repr

/-- The loop over the search path. vfpfunc.py:1269-1273 -/
def search (os : OS) (d : Disk) (name : Str) : List Str → Result
  | [] => .asks
  | p :: ps =>
    match isfile os d (join os p name) with
    | some f => .found f
    | none => search os d name ps

/-- `SEARCH_PATH`: the folder of the program, whatever SET PATH says. vfpfunc.py:48-53 -/
def searchPath (home : Str) : List Str := [home]

/-- `locfile`, vfpfunc.py:1263-1273 -/
def locfile (os : OS) (d : Disk) (home name : Str) : Result :=
  match isfile os d name with
  | some f => .found f
  | none => search os d (basename os name) (searchPath home)

end Model.FindFile
