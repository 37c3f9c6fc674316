import Verif.Model.FxpHeader
import Verif.Model.FxpCode
/-!
# The programs of a container and their listings

Source: `/repo/vfp2py/fxp_read.py`, `read_procedure_header` (1445-1451), `read_class_header`
(1453-1459), `read_source_info` (1464-1466), `read_fxp_file_block` (1476-1514) and the part of
`fxp_read` that writes the listings (1560-1564, 1591-1612).

The errors of the decoder keep their kind only where it can be observed: `fxp_read` swallows every
exception of `read_fxp_file_block`.  `codepages` tells for which keys `dbf.code_pages` has an entry.
Texts are lists of characters; all of them are of ISO-8859-1.  The messages printed are left out.
-/
namespace Model.Fxp

/-- `fid.seek(pos)`: a negative position is an error. fxp_read.py:61-62 -/
def seek (file : List Nat) (pos : Int) : Except RErr Rest :=
  if pos < 0 then .error .valueError else .ok (file.drop pos.toNat)

/-- Every exception is swallowed by the caller. fxp_read.py:1592-1611 -/
def lift {α : Type} : Except DErr α → Except RErr α
  | .ok x => .ok x
  | .error _ => .error .structError

/-- The fields of a block, format `<hhiiiiiiIIB`, fxp_read.py:1478-1479. -/
structure BlockHeader where
  numProcedures : Int
  numClasses : Int
  mainPos : Int
  procedurePos : Int
  classPos : Int
  sourcePos : Int
  numLines : Int
  linesPos : Int
  date : Nat
  namePos : Nat
  codepage : Nat
  deriving DecidableEq, Repr

/-- fxp_read.py:1476-1479 -/
def readBlockHeader (r : Rest) : Except DErr BlockHeader := do
  let (np, r) ← readSInt 2 r
  let (nc, r) ← readSInt 2 r
  let (main, r) ← readSInt 4 r
  let (pp, r) ← readSInt 4 r
  let (cp, r) ← readSInt 4 r
  let (sp, r) ← readSInt 4 r
  let (nl, r) ← readSInt 4 r
  let (lp, r) ← readSInt 4 r
  let (date, r) ← readUInt 4 r
  let (name, r) ← readUInt 4 r
  let (page, _) ← readUInt 1 r
  pure ⟨np, nc, main, pp, cp, sp, nl, lp, date, name, page⟩

/-- An entry of the list of procedures. fxp_read.py:1445-1451 -/
structure ProcHeader where
  name : String
  pos : Int
  flag : Int
  cls : Int
  deriving DecidableEq, Repr

/-- `read_procedure_header`, fxp_read.py:1445-1451. -/
def readProcHeader (r : Rest) : Except DErr (ProcHeader × Rest) := do
  let (name, r) ← readString r
  let (pos, r) ← readUInt 4 r
  let (flag, r) ← readSInt 2 r
  let (cls, r) ← readSInt 2 r
  pure (⟨name, pos, flag, cls⟩, r)

/-- fxp_read.py:1453-1459 -/
structure ClassHeader where
  name : String
  parent : String
  pos : Int
  deriving DecidableEq, Repr

/-- `read_class_header`, fxp_read.py:1453-1459; the last `read` may be short. -/
def readClassHeader (r : Rest) : Except DErr (ClassHeader × Rest) := do
  let (name, r) ← readString r
  let (parent, r) ← readString r
  let (pos, r) ← readUInt 4 r
  pure (⟨name, parent, pos⟩, r.drop 2)

/-- `[read(fid) for i in range(n)]`. fxp_read.py:1497-1507 -/
def readMany {α : Type} (read : Rest → Except DErr (α × Rest)) : Nat → Rest → Except DErr (List α)
  | 0, _ => .ok []
  | n + 1, r =>
    match read r with
    | .error e => .error e
    | .ok (x, r) =>
      match readMany read n r with
      | .error e => .error e
      | .ok xs => .ok (x :: xs)

/-- `read_source_info`, fxp_read.py:1464-1466. -/
def readSourceInfo (r : Rest) : Except DErr (Nat × Rest) :=
  if r.length < 16 then .error .structError else .ok (leDecode ((r.drop 12).take 4), r.drop 16)

/-- Part of Python's `datetime`, called by fxp_read.py:1436-1443 -/
def daysInMonth (year month : Nat) : Nat :=
  if month = 2 then (if year % 4 = 0 ∧ (year % 100 ≠ 0 ∨ year % 400 = 0) then 29 else 28)
  else if month ∈ [4, 6, 9, 11] then 30 else 31

/-- What `datetime(...)` accepts (fxp_read.py:1443). -/
def validDate (d : DateFields) : Bool :=
  decide (1 ≤ d.month) && decide (d.month ≤ 12) && decide (1 ≤ d.day) && decide (d.day ≤ daysInMonth d.year d.month) &&
    decide (d.hour < 24) && decide (d.minute < 60) && decide (d.second < 60)

/-- A procedure or class with its code. fxp_read.py:1476-1514 -/
structure Proc where
  name : List Char
  flag : Int
  code : List Char
  deriving DecidableEq, Repr

/-- fxp_read.py:1476-1514 -/
structure Class where
  name : List Char
  parent : List Char
  code : List Char
  deriving DecidableEq, Repr

/-- `fid.seek(pos + start_pos)` and `read_code_block` with its `''.join`, fxp_read.py:1425-1434,
1509-1511. -/
def readCode (fmt : Nat → List Nat → Option String) (file : List Nat) (pos : Int) : Except RErr (List Char) :=
  match seek file pos with
  | .error e => .error e
  | .ok r =>
    match lift (readCodeBlock fmt r) with
    | .error e => .error e
    | .ok ss => .ok (ss.flatMap String.toList)

/-- fxp_read.py:1509-1512 -/
def readProcs (fmt : Nat → List Nat → Option String) (file : List Nat) (start : Nat) : List ProcHeader → Except RErr (List Proc)
  | [] => .ok []
  | p :: ps =>
    match readCode fmt file (p.pos + start) with
    | .error e => .error e
    | .ok code =>
      match readProcs fmt file start ps with
      | .error e => .error e
      | .ok xs => .ok (⟨p.name.toList, p.flag, code⟩ :: xs)

/-- fxp_read.py:1509-1512 -/
def readClasses (fmt : Nat → List Nat → Option String) (file : List Nat) (start : Nat) : List ClassHeader → Except RErr (List Class)
  | [] => .ok []
  | c :: cs =>
    match readCode fmt file (c.pos + start) with
    | .error e => .error e
    | .ok code =>
      match readClasses fmt file start cs with
      | .error e => .error e
      | .ok xs => .ok (⟨c.name.toList, c.parent.toList, code⟩ :: xs)

/-- `read_fxp_file_block`, fxp_read.py:1476-1514. -/
def readFileBlock (fmt : Nat → List Nat → Option String) (codepages : Nat → Bool) (file : List Nat) (start namePos : Nat) :
    Except RErr (List Proc × List Class) := do
  let h ← lift (readBlockHeader (file.drop start))
  if validDate (convertDate h.date) = false then throw .valueError
  if codepages (255 - h.codepage) = false then throw .valueError
  let _ ← readUntilNull file (namePos + h.namePos)
  let procs ← (do
    let r ← seek file (h.procedurePos + start)
    let ps ← lift (readMany readProcHeader h.numProcedures.toNat r)
    pure (⟨"", h.mainPos, 0, -1⟩ :: ps))
  let classes ← (do
    let r ← seek file (h.classPos + start)
    lift (readMany readClassHeader h.numClasses.toNat r))
  let _ ← seek file (h.linesPos + start)
  let r ← seek file (h.sourcePos + start)
  let _ ← lift (readMany readSourceInfo (h.numProcedures + h.numClasses + 1).toNat r)
  let ps ← readProcs fmt file start procs
  let cs ← readClasses fmt file start classes
  pure (ps, cs)

/-! ## The listing -/

/-- The ends of lines for `str.splitlines`, among the characters of ISO-8859-1. -/
def isBreak (c : Char) : Bool := [10, 11, 12, 13, 28, 29, 30, 133].contains c.toNat

/-- `code.splitlines(True)`. fxp_read.py:1592-1611 -/
def splitKeep : List Char → List (List Char)
  | [] => []
  | c :: s =>
    if c = '\r' ∧ s.head? = some '\n' then
      match splitKeep s with
      | [] => [[c]]
      | l :: ls => (c :: l) :: ls
    else if isBreak c then [c] :: splitKeep s
    else
      match splitKeep s with
      | [] => [[c]]
      | l :: ls => (c :: l) :: ls

/-- The rest of a text behind a beginning. fxp_read.py:1592-1611 -/
def behind : List Char → List Char → Option (List Char)
  | [], s => some s
  | _ :: _, [] => none
  | p :: ps, c :: s => if p = c then behind ps s else none

/-- `re.match(r'add (hidden |protected |)?method ([0-9]*)', line)`, fxp_read.py:1604: the two
groups. -/
def methodLine (line : List Char) : Option (List Char × List Char) :=
  match behind "add ".toList line with
  | none => none
  | some s =>
    let group (q : String) : Option (List Char × List Char) :=
      match behind q.toList s with
      | none => none
      | some s =>
        match behind "method ".toList s with
        | none => none
        | some s => some (q.toList, s.takeWhile Char.isDigit)
    (group "hidden ").or ((group "protected ").or (group ""))

/-- `int(digits)`. fxp_read.py:1592-1611 -/
def toNumber (ds : List Char) : Nat := ds.foldl (fun n c => 10 * n + (c.toNat - 48)) 0

/-- The text written and whether an exception stopped it. fxp_read.py:1592-1611 -/
abbrev Written := List Char × Bool

/-- One write behind another, fxp_read.py:1592-1611 -/
def Written.andThen (a : Written) (b : Written) : Written := if a.2 then a else (a.1 ++ b.1, b.2)

/-- fxp_read.py:1592-1611 -/
def kwProcedure : List Char := "PROCEDURE ".toList
/-- fxp_read.py:1592-1611 -/
def kwDefine : List Char := "DEFINE CLASS ".toList
/-- fxp_read.py:1592-1611 -/
def kwAs : List Char := " AS ".toList

/-- `PROCEDURE name` and the code, fxp_read.py:1597-1599, 1608-1609. -/
def procText (qualifier : List Char) (p : Proc) : List Char := qualifier ++ kwProcedure ++ p.name ++ ['\n'] ++ p.code

/-- The lines of a class, fxp_read.py:1603-1611: `int('')` and the index of the list of procedures
can fail; `outfid.write(line)` gets a `str`, which a binary file does not take. -/
def classLines (procs : List Proc) : List (List Char) → Written
  | [] => ([], false)
  | line :: lines =>
    match methodLine line with
    | none => ([], true)
    | some (q, ds) =>
      if ds = [] then ([], true)
      else
        match procs[toNumber ds]? with
        | none => ([], true)
        | some p => Written.andThen (procText q p, false) (classLines procs lines)

/-- fxp_read.py:1592-1611 -/
def classText (procs : List Proc) (c : Class) : Written :=
  Written.andThen (kwDefine ++ c.name ++ kwAs ++ c.parent ++ ['\n'], false)
    (classLines procs (splitKeep c.code))

/-- fxp_read.py:1592-1611 -/
def classesText (procs : List Proc) : List Class → Written
  | [] => ([], false)
  | c :: cs => Written.andThen (classText procs c) (classesText procs cs)

/-- The procedures that belong to no class, fxp_read.py:1595-1599. -/
def procsText : List Proc → List Char
  | [] => []
  | p :: ps =>
    (if p.flag ≠ 0 then [] else if p.name ≠ [] then procText [] p else p.code) ++ procsText ps

/-- The listing of one program, fxp_read.py:1594-1612. -/
def listing (procs : List Proc) (classes : List Class) : Written :=
  Written.andThen (procsText procs, false) (classesText procs classes)

/-- The listings of all programs, fxp_read.py:1592-1611: the names and texts of the files written,
and whether an exception stopped it. -/
def listings : List (List Char × List Proc × List Class) → List (List Char × List Char) × Bool
  | [] => ([], false)
  | (name, procs, classes) :: rest =>
    let w := listing procs classes
    if w.2 then ([(name, w.1)], true)
    else ((name, w.1) :: (listings rest).1, (listings rest).2)

end Model.Fxp
