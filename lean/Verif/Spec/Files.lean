/-!
# Files

File names are lists of characters. A directory tree gives the entries of every
directory, and nothing for what is not a directory.
-/
namespace Spec.Files

abbrev Str := List Char

def lower (s : Str) : Str := s.map Char.toLower

/-- The part of a path behind the last slash. -/
def fileName : Str → Str
  | [] => []
  | c :: p => if '/' ∈ p then fileName p else if c = '/' then p else c :: p

/-- The entries of a directory, which is given by the names from the root. -/
abbrev Tree := List Str → Option (List Str)

/-- A path walks through the tree: each component is `..`, `.`, empty, or stands for an
entry that has this name up to upper and lower case. -/
inductive Walks (t : Tree) : List Str → List Str → List Str → Prop
  | nil {p} : Walks t p [] p
  | up {p cs q} : Walks t p.dropLast cs q → Walks t p (['.', '.'] :: cs) q
  | stay {p c cs q} : c = ['.'] ∨ c = [] → Walks t p cs q → Walks t p (c :: cs) q
  | entry {p c cs q es e} : t p = some es → e ∈ es → lower e = lower c → Walks t (p ++ [e]) cs q →
      Walks t p (c :: cs) q

/-- A path with directory, name and extension. -/
structure IsPath (path dir stem ext : Str) : Prop where
  parts : path = dir ++ (stem ++ '.' :: ext)
  dir : dir = [] ∨ dir.getLast? = some '/'
  stem : '/' ∉ stem ∧ ∃ c ∈ stem, c ≠ '.'
  ext : '.' ∉ ext ∧ '/' ∉ ext

/-- The extensions of programs, forms and class libraries, and those of files that are left out. -/
def sources : List Str := ["prg".toList, "mpr".toList, "spr".toList, "scx".toList, "vcx".toList]
def leftOut : List Str := ["frx".toList, "mnx".toList, "fll".toList, "app".toList, "fpw".toList, "h".toList]

/-- The name of the output. -/
def outputName (stem ext : Str) : Str :=
  lower stem ++ ((if lower ext = "prg".toList then [] else '_' :: lower ext) ++ ".py".toList)

/-- Three numbers with commas. -/
def IsColor (v : Str) : Prop :=
  ∃ a b c : Str, (∀ x ∈ a ++ b ++ c, '0' ≤ x ∧ x ≤ '9') ∧ v = a ++ ',' :: (b ++ ',' :: c)

/-- The delimiters of FoxPro string literals. -/
def delimiters : List (Char × Char) := [('"', '"'), ('\'', '\''), ('[', ']')]

/-- A FoxPro string literal and the string it denotes: the text up to the first closing
delimiter, which is the last character. -/
def IsLiteral (text value : Str) : Prop :=
  ∃ d ∈ delimiters, text = d.1 :: (value ++ [d.2]) ∧ d.2 ∉ value

end Spec.Files
