import Verif.Model.Files
/-!
# The memo file of a form, class library or project

`memo_filename` and `copy_obscured_dbf`, vfp2py.py:204-222.

Simplifications: paths are those of POSIX; a folder is the list of its files with their contents in the order of
`os.listdir`, and empty for what is not a folder; the names of the copies are fresh.
-/
namespace Model.MemoFile
open Model.Files (basename splitext findIgnoreCase)

abbrev Str := List Char

/-- The files of every folder. -/
abbrev Disk := Str → List (Str × Str)

/-- `os.path.dirname(filename) or '.'`. vfp2py.py:211 -/
def folderOf (p : Str) : Str :=
  let head := (p.reverse.dropWhile (· ≠ '/')).reverse
  let dir := if head.all (· = '/') then head else (head.reverse.dropWhile (· = '/')).reverse
  if dir = [] then ['.'] else dir

/-- What a file contains. vfp2py.py:219, 221 -/
def content (files : List (Str × Str)) (name : Str) : Option Str := (files.find? fun f => f.1 = name).map Prod.snd

/-- `memo_filename`, without the folder. vfp2py.py:210-214 -/
def memoName (d : Disk) (filename ext : Str) : Option Str :=
  findIgnoreCase ((splitext (basename filename)).1 ++ '.' :: ext) ((d (folderOf filename)).map Prod.fst)

/-- `copy_obscured_dbf`: the contents of the copies of the table and of its memo file. `none` is the exception of
`shutil.copy`. vfp2py.py:216-222 -/
def copied (d : Disk) (filename ext : Str) : Option (Str × Option Str) :=
  (content (d (folderOf filename)) (basename filename)).map fun c =>
    (c, (memoName d filename ext).bind (content (d (folderOf filename))))

end Model.MemoFile
