import Verif.Model.PyVal
/-!
# Forms (SCX files)

`convert_scx_to_vfp_code`, vfp2py.py 289-362: the records of a form file become a FoxPro program.

A record holds the fields that are used; `props` and `methods` are the lines of the memo fields,
that is `properties.split('\r\n')`.  The result is the list of the lines of the program.
Simplifications: the indentation of the lines (342-349) and the replacement of several blank lines by
one (361), which mean nothing to FoxPro outside of TEXT blocks, are left out.
-/
namespace Model.Forms
open PyVal (strip)

/-- Text as a list of characters; a Python `str` at vfp2py.py:289-362. -/
abbrev Str := List Char

/-- The fields of a record used in vfp2py.py:289-362 -/
structure Rec where
  objname : Str
  cls : Str
  parent : Str
  props : List Str
  methods : List Str
  deriving DecidableEq, Repr

/-- `str.lower()`, vfp2py.py:289-362 -/
def lower (s : Str) : Str := s.map Char.toLower

/-- `names.index(name)`, vfp2py.py:298, 305. -/
def indexOf (recs : List Rec) (name : Str) : Option Nat := recs.findIdx? fun r => r.objname = name

/-- vfp2py.py:300-306: no ValueError. -/
def parentsKnown (recs : List Rec) : Bool :=
  recs.all fun r => r.parent = [] || (indexOf recs r.parent).isSome

/-- `children[i]`, vfp2py.py:297-306. -/
def childrenOf (recs : List Rec) (i : Nat) : List Rec :=
  recs.filter fun r => r.parent ≠ [] && indexOf recs r.parent = some i

/-- The variable `form` at the end of the loop, vfp2py.py:301-302; `none`: never assigned. -/
def formOf (recs : List Rec) : Option Str :=
  (recs.reverse.find? fun r => lower r.cls = "form".toList).map Rec.objname

/-- vfp2py.py:308. -/
def header (form : Str) : List Str :=
  ["local ".toList ++ form, form ++ " = createObject(\"".toList ++ form ++ "\")".toList, form ++ ".show()".toList]

/-- `line.split(' = ')`; `cur` is the part read so far. vfp2py.py:289-362 -/
def splitEq (cur : Str) : Str → List Str
  | ' ' :: '=' :: ' ' :: s => cur :: splitEq [] s
  | c :: s => splitEq (cur ++ [c]) s
  | [] => [cur]

/-- The value that is written, vfp2py.py:325-328. -/
def memberValue (prop value : Str) : Str :=
  if prop = "Picture".toList then "\"".toList ++ value ++ "\"".toList
  else if "Color".toList.isSuffixOf prop then "RGB(".toList ++ value ++ ")".toList
  else value

/-- The line for a property of a member, vfp2py.py:320-329.  The result of the property lines:
`none` for the ValueError of the unpacking. -/
def memberProps (obj : Str) : List Str → Option (List Str)
  | [] => some []
  | l :: ls =>
    if strip l = [] then memberProps obj ls
    else
      match splitEq [] (strip l) with
      | [prop, value] =>
        (memberProps obj ls).map ((obj ++ ".".toList ++ prop ++ " = ".toList ++ memberValue prop value) :: ·)
      | _ => none

/-- vfp2py.py:317-330. -/
def members : List Rec → Option (List Str)
  | [] => some []
  | r :: rs =>
    match memberProps r.objname r.props, members rs with
    | some ls, some rest =>
      some (("ADD OBJECT ".toList ++ r.objname ++ " AS ".toList ++ r.cls) :: ls ++ [[]] ++ rest)
    | _, _ => none

/-- vfp2py.py:289-362 -/
def pattern : Str := "PROCEDURE ".toList

/-- `re.sub(r'PROCEDURE ', 'PROCEDURE {}.'.format(obj), line)`, vfp2py.py:338: `k` characters of an
occurrence are still to be copied. -/
def subFrom (obj : Str) : Nat → Str → Str
  | _, [] => []
  | 0, c :: s => if pattern.isPrefixOf (c :: s) then c :: subFrom obj 9 s else c :: subFrom obj 0 s
  | 1, c :: s => c :: (obj ++ ".".toList) ++ subFrom obj 0 s
  | k + 2, c :: s => c :: subFrom obj (k + 1) s

/-- vfp2py.py:334-340. -/
def memberMethods : List Rec → List Str
  | [] => []
  | r :: rs => (r.methods.filter (· ≠ [])).map (subFrom r.objname 0) ++ [[]] ++ memberMethods rs

/-- One class, vfp2py.py:313-343. -/
def classLines (r : Rec) (children : List Rec) : Option (List Str) :=
  (members children).map fun ms =>
    ("DEFINE CLASS ".toList ++ r.objname ++ " AS ".toList ++ r.cls) :: r.props ++ ms ++ r.methods ++ [[]] ++
      memberMethods children ++ ["ENDDEFINE".toList, []]

/-- vfp2py.py:310. -/
def skipped (r : Rec) : Bool :=
  r.objname = [] || r.parent ≠ [] || lower r.cls = "dataenvironment".toList

/-- The loop over the records, vfp2py.py:309-343; `i` is the number of the first record of the list. -/
def classesFrom (recs : List Rec) : Nat → List Rec → Option (List Str)
  | _, [] => some []
  | i, r :: rs =>
    if skipped r then classesFrom recs (i + 1) rs
    else
      match classLines r (childrenOf recs i), classesFrom recs (i + 1) rs with
      | some a, some b => some (a ++ b)
      | _, _ => none

/-- `convert_scx_to_vfp_code`, vfp2py.py:289-362; `none` is an exception. -/
def convertScx (recs : List Rec) : Option (List Str) :=
  if parentsKnown recs then
    match formOf recs, classesFrom recs 0 recs with
    | some f, some ls => some (header f ++ ls)
    | _, _ => none
  else none

end Model.Forms
