import Verif.Spec.Files
import Verif.Py.Dict
/-!
# Files of a conversion

Names of output files, lookup of files, property values of class libraries and the
files of a project.
-/
namespace Model.Files
open Spec.Files (Str lower Tree)

/-! ## Names -/

/-- `os.path.basename` (POSIX). vfp2py.py:410-453, 500-538 -/
def basename (p : Str) : Str := (p.reverse.takeWhile (· ≠ '/')).reverse

/-- `os.path.splitext` of a name without `/`: cut at the last dot, unless only dots
stand before it. vfp2py.py:500-538 -/
def splitext (b : Str) : Str × Str :=
  let ext := b.reverse.takeWhile (· ≠ '.')
  match b.reverse.dropWhile (· ≠ '.') with
  | [] => (b, [])
  | _ :: stem => if stem.all (· = '.') then (b, []) else (stem.reverse, '.' :: ext.reverse)

/-- vfp2py.py:500-538 -/
def converted : List Str := [".prg".toList, ".mpr".toList, ".spr".toList, ".scx".toList, ".vcx".toList]
/-- vfp2py.py:500-538 -/
def unsupported : List Str := [".frx".toList, ".mnx".toList, ".fll".toList, ".app".toList]
/-- vfp2py.py:500-538 -/
def ignored : List Str := [".fpw".toList, ".h".toList]

/-- `file_ext` (vfp2py.py 501). -/
def fileExt (infile : Str) : Str := (splitext (basename (lower infile))).2

/-- The name of the output in a directory (vfp2py.py 507-509). -/
def outName (infile : Str) : Str :=
  let stem := (splitext (lower (basename infile))).1
  let suffix := if fileExt infile = ".prg".toList then [] else (fileExt infile).map fun c => if c = '.' then '_' else c
  stem ++ suffix ++ ".py".toList

/-- What `convert_file` does. vfp2py.py:500-538 -/
inductive Effect
  /-- `convert_project` is called. -/
  | project
  | nothing
  /-- A file in the output directory is written. -/
  | write (name : Str) (text : Str)
  /-- The given output file is written. -/
  | writeOut (text : Str)
  /-- The conversion raises an exception before a file is opened. -/
  | raised

/-- `convert_file` (vfp2py.py 500-538). `isDir` tells whether the output is a directory,
`files` gives the contents of its files, `result` the converted text (`none`: an
exception) and `content` the content of the input file. -/
def convertFile (infile : Str) (isDir : Bool) (files : Str → Option Str) (result : Option Str) (content : Str) : Effect :=
  if fileExt infile = ".pjx".toList then .project
  else if fileExt infile ∈ converted then
    if isDir && (files (outName infile)).isSome then .nothing
    else match result with
      | none => .raised
      | some text => if isDir then .write (outName infile) text else .writeOut text
  else if fileExt infile ∈ unsupported ∨ fileExt infile ∈ ignored then .nothing
  else if isDir then .write (lower (basename infile)) content
  else .nothing

/-- The files of the output directory afterwards. vfp2py.py:500-538 -/
def after (files : Str → Option Str) : Effect → Str → Option Str
  | .write name text => fun n => if n = name then some text else files n
  | _ => files

/-! ## Lookup -/

/-- `find_file_ignore_case` (vfp2py.py 204-208) in one directory: the first entry with
this name up to case. -/
def findIgnoreCase (part : Str) (entries : List Str) : Option Str := entries.find? fun e => lower e = lower part

/-- The index of the first occurrence; `list.index` of an element. vfp2py.py:364-378 -/
def indexOf (x : Str) : List Str → Nat
  | [] => 0
  | y :: l => if y = x then 0 else indexOf x l + 1

/-- The loop of `find_full_path` (vfp2py.py 369-378). `parts` are all components, the
last argument those left. The result is the path and the flag of failure; `none` is the
exception of `os.listdir` for something that is not a directory. Directories are given
by their names from the root, links are not considered. -/
def walk (t : Tree) (parts : List Str) : List Str → List Str → Option (List Str × Bool)
  | path, [] => some (path, false)
  | path, c :: cs =>
    if c = ['.', '.'] then walk t parts path.dropLast cs
    else if c = ['.'] ∨ c = [] then walk t parts path cs
    else
      match t path with
      | none => none
      | some entries =>
        match findIgnoreCase c entries with
        | some e => walk t parts (path ++ [e]) cs
        | none => some (path ++ parts.drop (indexOf c parts), true)

/-- `find_full_path` (vfp2py.py 364-378) for a path that has been split into components;
the splitting with `ntpath.split` is not modelled. -/
def findFullPath (t : Tree) (start parts : List Str) : Option (List Str × Bool) := walk t parts start parts

/-! ## Property values -/

/-- The quoting of a property value that is no constant (vfp2py.py 265-276). -/
def quote (value : Str) : Str :=
  if '"' ∉ value then '"' :: (value ++ ['"'])
  else if '\'' ∉ value then '\'' :: (value ++ ['\''])
  else if '[' ∉ value ∧ ']' ∉ value then '[' :: (value ++ [']'])
  else value

/-- `^[0-9]*,[0-9]*,[0-9]*$`. vfp2py.py:245 -/
def isColor (value : Str) : Bool :=
  let a := value.dropWhile fun c => decide ('0' ≤ c ∧ c ≤ '9')
  match a with
  | ',' :: a =>
    match a.dropWhile fun c => decide ('0' ≤ c ∧ c ≤ '9') with
    | ',' :: b => (b.dropWhile fun c => decide ('0' ≤ c ∧ c ≤ '9')).isEmpty
    | _ => false
  | _ => false

/-- `^\(.*\)$`. vfp2py.py:247 -/
def inParens (value : Str) : Bool :=
  match value with
  | '(' :: r => r.getLast? = some ')'
  | _ => false

/-- The text that the parser is given: without a leading minus sign (vfp2py.py 250-253). -/
def unsigned : Str → Str
  | '-' :: r => r
  | v => v

/-- The value of a property in the generated class (vfp2py.py 242-277). `accepts` tells
whether the parser finds a constant at the beginning of the text. -/
def propertyValue (accepts : Str → Bool) (value : Str) : Str :=
  if value = [] then ['"', '"']
  else if isColor value then "RGB(".toList ++ value ++ [')']
  else if inParens value then value
  else if accepts (unsigned value) then value
  else quote value

/-! ## Projects -/

/-- A record of a project file: its path as found (`failed` if it was not), and the
flags. vfp2py.py:380-408 -/
structure Record where
  path : Str
  failed : Bool
  skipped : Bool
  main : Bool

/-- The loop of `read_vfp_project` (vfp2py.py 393-402). -/
def readProject (records : List Record) : Py.Dict Str (Option Str) :=
  records.foldl (fun files r =>
    if r.skipped then files
    else if r.failed then files.set r.path none
    else files.set (lower (basename r.path)) (some r.path)) []

/-- The arguments with which `convert_project` (vfp2py.py 422-428) calls `convert_file`. -/
def convertedFiles (records : List Record) : List Str :=
  (readProject records).map fun p => match p.2 with
    | some path => path
    | none => p.1

end Model.Files
