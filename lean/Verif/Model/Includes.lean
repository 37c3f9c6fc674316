import Verif.Model.FindFile
/-!
# Where `#INCLUDE` looks for a file

`visitPreprocessorInclude` and `which`, vfp2py.py:28-37, 73-88, the search list of `main`, __main__.py:23, and of
`convert_project`, vfp2py.py:411-425.

Simplifications: names are names or relative paths without `..`; files are given by their paths from the root; files do
not change while the converter runs.
-/
namespace Model.Includes
open Model.FindFile (Disk same parts)
open Model.PathFns (Str OS)

/-- `os.path.isfile(path)` and the file that `open(path)` opens, for a path from the root. vfp2py.py:35, 200 -/
def fileAt (os : OS) (d : Disk) (p : List Str) : Option (List Str) := d.files.find? (same os p)

/-- `visitSpecialExpr` on the name behind `#INCLUDE`, taken apart at the separators. vfp2py.py:76-79;
vfp2py_convert_visitor.py:1152-1154 -/
def nameParts (os : OS) (name : Str) : List Str := parts os (name.map Char.toLower)

/-- `which`; the name alone is taken from the current folder. The elements of the search list are paths from the root, `none` is the `None` of a file of the
project that was not found. vfp2py.py:31-37 -/
def which (os : OS) (d : Disk) (name : List Str) : List (Option (List Str)) → List Str
  | [] => d.cwd ++ name
  | none :: ps => which os d name ps
  | some p :: ps => if (fileAt os d (p ++ name)).isSome then p ++ name else which os d name ps

/-- The file that is included; `none` is the exception of `open`. vfp2py.py:76-88, 199-202 -/
def included (os : OS) (d : Disk) (search : List (Option (List Str))) (name : Str) : Option (List Str) :=
  fileAt os d (which os d (nameParts os name) search)

/-- `SEARCH_PATH` of a conversion: the current folder, the folders of the command line. vfp2py.py:28; __main__.py:23 -/
def searchPath (d : Disk) (args : List (List Str)) : List (Option (List Str)) := some d.cwd :: args.map some

/-- `SEARCH_PATH` while the files of a project are converted. vfp2py.py:412-414, 425 -/
def projectPath (d : Disk) (args : List (List Str)) (files : List (Option (List Str))) : List (Option (List Str)) :=
  searchPath d args ++ files

end Model.Includes
