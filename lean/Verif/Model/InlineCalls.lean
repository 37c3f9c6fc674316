/-!
# What a call of a function becomes, argument by argument

Source: `/repo/vfp2py/vfp2py_convert_visitor.py`, `func_call` (631-970), for the functions that are
written out in place; `vfpfunc.Array` (`/repo/vfp2py/vfpfunc.py` 874-941) for the methods of arrays,
`vfpfunc.dtoc` (1183), `DatabaseContext.afields` (`/repo/vfp2py/vfpdatabase.py` 364).

Only these effects are kept: whether the conversion raises an exception (`visitLine` then writes the
statement as a comment, C52), which arguments stand in the generated code, which modules the code
uses and which it imports, and whether a call in it is refused for the number or the types of its
arguments or because the method does not exist.  What the code computes is the subject of C09-C15,
C48, C49, C82, C87-C93, C113, C114.

An argument is a text constant, a number constant or anything else (`code`; an `OperatorExpr` does
not differ from a `CodeStr` in what follows, and the constants `.T.`, `.F.`, `.NULL.` are not
expected where a number is looked at).
-/
namespace Model.InlineCalls

/-- The arguments as `func_call` sees them, vfp2py_convert_visitor.py:631 -/
inductive Kind where
  | text (s : String)
  | num (n : Int)
  | code
  deriving DecidableEq, Repr

/-- vfp2py_convert_visitor.py:656-960 -/
inductive Fn where
  | chr | val | space | asc | len | alen | ascan | ains | afields | acopy | empty | occurs | at | rat | atc | replicate
  | date | datetime | time | dtot
  /-- YEAR, MONTH, DAY, HOUR, MINUTE, SEC, CDOW, CMONTH, DMY. -/
  | datePart (name : String)
  | dow | dtoc | dtos | iif | between | nvl | evl | sign
  /-- ALLTRIM, LTRIM, RTRIM, LOWER, UPPER, PROPER. -/
  | textMethod (name : String)
  /-- PADL, PADR, PADC. -/
  | pad (name : String)
  | strtran | right | left | substr | getenv | getwordcount | rand
  /-- CEILING, EXP, LOG, LOG10, SIN, COS, TAN, ASIN, ACOS, ATAN, SQRT, DTOR, RTOD. -/
  | math (name : String)
  | pi
  /-- BITAND, BITOR, BITXOR. -/
  | bitMany (name : String)
  /-- BITCLEAR, BITLSHIFT, BITRSHIFT, BITSET, BITTEST. -/
  | bitTwo (name : String)
  | bitnot | abs | round | max | min | mod | int | isnull
  /-- ISALPHA, ISLOWER, ISDIGIT, ISUPPER. -/
  | charTest (name : String)
  | inlist | fcreate | fopen | fclose | fputs | fwrite | fgets | fread | fseek
  /-- FILE, DIRECTORY. -/
  | pathTest (name : String)
  /-- JUSTDRIVE, JUSTPATH, JUSTFNAME, JUSTSTEM, JUSTEXT, ADDBS. -/
  | pathPart (name : String)
  | forceext | curdir
  deriving DecidableEq, Repr

/-- The generated code. vfp2py_convert_visitor.py:656-960 -/
structure Emit where
  /-- The positions of the arguments in the order in which they stand in the code; an argument that
  selects between two forms of the code counts as standing in it. -/
  args : List Nat
  /-- The modules that the code names. -/
  modules : List String := []
  /-- The modules for which an import is written. -/
  imports : List String := []
  /-- No call in the code is refused. -/
  runs : Bool := true
  deriving DecidableEq, Repr

/-- A `format` with the first `k` arguments: an exception when there are fewer, and no trace of the
others. vfp2py_convert_visitor.py:123-124 -/
def first (k : Nat) (a : List Kind) : Option Emit :=
  if a.length < k then none else some { args := List.range k }

/-- `make_func_code(name, *args)`. vfp2py_convert_visitor.py:106-112 -/
def allArgs (a : List Kind) : Emit := { args := List.range a.length }

/-- The methods and attributes of `Array`, vfpfunc.py:874-941. -/
def arrayMethods : List String := ["columns", "offset", "dim1", "data", "_subarray", "_get_index", "alen", "index"]

/-- `strtran`, vfp2py_convert_visitor.py:790-807.  `int(arg)` leaves a number a number and anything
else code; `code < 2` raises. -/
def strtran (a : List Kind) : Option Emit :=
  let a := a.take 6
  if a.length = 0 then none
  else
    let a := if a.length = 6 ∧ (a[5]? = some (.num 0) ∨ a[5]? = some (.num 2)) then a.take 5 else a
    if a.length ≤ 3 then
      -- one argument: no branch is taken, and the library function needs more
      some { allArgs a with runs := decide (a.length ≠ 1) }
    else if a.length = 4 then
      match a[3]? with
      | some (Kind.num n) => some { args := if n < 2 then [0, 1, 2] else [0, 1, 2, 3] }
      | _ => none
    else if a.length = 5 then
      match a[3]? with
      | some (Kind.num n) => some { args := if n < 2 then [0, 1, 2, 4] else [0, 1, 2, 3, 4] }
      | _ => none
    else some (allArgs a)

/-- `fopen` and `fcreate`, vfp2py_convert_visitor.py:910-920, with the number of modes.  `code <= n`
raises; a number below the number of modes selects one; the number of modes itself raises; a larger
number stands as the mode of `open`, which refuses it. -/
def openFile (modes : Nat) (a : List Kind) : Option Emit :=
  match a with
  | _ :: .num n :: _ =>
    if n ≤ modes then
      if n < modes ∧ -modes ≤ n then some (allArgs a) else none
    else some { allArgs a with runs := false }
  | _ :: _ :: _ => none
  | _ => some { allArgs a with runs := decide (a.length = 1) }

/-- `func_call`, vfp2py_convert_visitor.py:656-960. -/
def emit : Fn → List Kind → Option Emit
  | .chr, a | .val, a | .space, a => some { allArgs a with runs := decide (a.length = 1) }      -- 656-664
  | .asc, a => first 1 a                                                                          -- 665
  | .len, a => some { allArgs a with runs := decide (a.length = 1) }                            -- 667
  | .alen, a => if a.length = 1 then first 1 a else first 2 a                                     -- 669
  | .ascan, a =>                                                                                  -- 675
    some { allArgs a with runs := decide (2 ≤ a.length ∧ a.length ≤ 4) }
  | .ains, a =>                                                                                   -- 682
    if a.length = 0 then none else some { allArgs a with runs := arrayMethods.contains "insert" }
  | .afields, a =>                                              -- 684, `DB.afields` takes no argument
    if a.length = 0 then none else some { allArgs a with runs := false }
  | .acopy, a =>                                                                                  -- 696
    if a.length < 2 then none else some { allArgs a with runs := arrayMethods.contains "copy" }
  | .empty, a => first 1 a                                                                        -- 705
  | .occurs, a | .at, a | .rat, a | .atc, a =>                                                    -- 707-718
    if a.length < 2 then none else some { args := [1, 0] }
  | .replicate, a => some { allArgs a with runs := decide (a.length = 2) }                      -- 719
  | .date, a =>                                                                                   -- 722-739
    some { allArgs a with modules := ["dt"], imports := ["dt"], runs := decide (a.length = 0 ∨ a.length = 3) }
  | .datetime, a =>
    some { allArgs a with modules := ["dt"], imports := ["dt"], runs := decide (a.length = 0 ∨ 3 ≤ a.length ∧ a.length ≤ 7) }
  | .time, a => some { allArgs a with modules := ["dt"], imports := ["dt"] }
  | .dtot, a => (first 1 a).map ({ · with modules := ["dt"], imports := ["dt"] })
  | .datePart _, a => (first 1 a).map ({ · with imports := ["dt"] })                             -- 740-752
  | .dow, a => if a.length = 0 then none else some { allArgs a with imports := ["dt"], runs := decide (a.length ≤ 2) }
  | .dtoc, a | .dtos, a =>                                                                        -- 753-767
    match a with
    | [] => none
    | [_] => some { args := [0] }
    | _ :: .num 1 :: _ => some { args := [0, 1] }
    | _ => some { allArgs a with runs := false }
  | .iif, a => some { args := if a.length = 3 then [1, 0, 2] else List.range a.length, runs := decide (a.length = 3) }  -- 768
  | .between, a => if a.length < 3 then none else some { args := [1, 0, 2] }                     -- 770
  | .nvl, a | .evl, a => first 2 a                                                                -- 772-775
  | .sign, a => first 1 a                                                                         -- 776
  | .textMethod _, a =>                             -- 778-789: `strip(1)`, `lower(1)` are refused
    if a.length = 0 then none else some { allArgs a with runs := decide (a.length = 1) }
  | .pad _, a => if a.length = 0 then none else some { allArgs a with runs := decide (a.length = 2 ∨ a.length = 3) }
  | .strtran, a => strtran a
  | .right, a => first 2 a                                                                        -- 814
  | .left, a => some { allArgs a with runs := decide (a.length = 2) }                            -- 817
  | .substr, a => if a.length < 2 then none else some { args := List.range (Nat.min a.length 3) }   -- 820-830
  | .getenv, a =>              -- 831: `add_args_to_code('{}.upper()', args[0])` takes the first letter
    match a with
    | [] => none
    | .text _ :: _ => some { allArgs a with modules := ["os"], runs := decide (a.length = 1) }
    | .num _ :: _ => none
    | .code :: rest => some { args := (List.range rest.length).map (· + 1), modules := ["os"], runs := decide (rest.length = 0) }
  | .getwordcount, a => if a.length < 2 then first 1 a else first 2 a                             -- 835
  | .rand, _ => some { args := [], modules := ["random"], imports := ["random"] }                 -- 839
  | .math _, a => some { allArgs a with modules := ["math"], imports := ["math"], runs := decide (a.length = 1) }  -- 842-853
  | .pi, _ => some { args := [], modules := ["math"], imports := ["math"] }
  | .bitMany _, a | .bitTwo _, a => first 2 a                                                     -- 854-866
  | .bitnot, a => first 1 a
  | .abs, a => some { allArgs a with runs := decide (a.length = 1) }                            -- 867
  | .round, a => some { allArgs a with runs := decide (a.length = 1 ∨ a.length = 2) }
  | .max, a | .min, a => some { allArgs a with runs := decide (2 ≤ a.length) }
  | .mod, a => first 2 a                                                                          -- 869
  | .int, a => first 1 a                                                                          -- 871
  | .isnull, a => first 1 a                                                                       -- 873
  | .charTest _, a => first 1 a                                                                   -- 875
  | .inlist, a => if a.length = 0 then none else some (allArgs a)                                -- 877
  | .fcreate, a => openFile 2 a                                                                   -- 910
  | .fopen, a => openFile 3 a
  | .fclose, a => first 1 a                                                                       -- 921
  | .fputs, a | .fwrite, a =>                                                                     -- 923-929
    if a.length < 2 then none else some { args := if a.length = 3 then [0, 1, 2] else [0, 1] }
  | .fgets, a | .fread, a => if a.length < 2 then first 1 a else first 2 a                        -- 930-939
  | .fseek, a => if a.length = 0 then none else some { allArgs a with runs := decide (a.length = 2 ∨ a.length = 3) }  -- 940
  | .pathTest _, a => some { allArgs a with modules := ["os"], imports := ["os"], runs := decide (a.length = 1) }      -- 943-959
  | .pathPart _, a => (first 1 a).map ({ · with modules := ["os"], imports := ["os"] })
  | .forceext, a => (first 2 a).map ({ · with modules := ["os"], imports := ["os"] })
  | .curdir, _ => some { args := [], modules := ["os"], imports := ["os"] }

end Model.InlineCalls
