import Verif.Py.Seq
/-!
# Model of the string functions of the run-time library (vfp2py/vfpfunc.py)

A Python `str` is a list of characters.  Integer arguments are `Int`; the calls of `int(..)` on
them are the identity.  Raised exceptions are `none` (the only ones possible are named in the
comments).
-/
namespace Model.Strings
open Py

/-- Text as a list of characters; a Python `str` at vfpfunc.py:1136-1508. -/
abbrev Str := List Char

/-! ## CHRTRAN -/

/-- `chrtran`, vfpfunc.py:1145-1146; `none` is the IndexError of `rchrs[k]`. -/
def chrtran (expr fchrs rchrs : Str) : Option Str :=
  match expr with
  | [] => some []
  | c :: cs =>
    match (match indexOf fchrs c with
      | some k => Py.index rchrs (k : Int)
      | none => some c) with
    | none => none
    | some d => (chrtran cs fchrs rchrs).map (d :: ·)

/-! ## STRTRAN -/

/-- `s.find(old)` as a natural number. Called by vfpfunc.py:1491-1505 -/
def findIdx (s old : Str) : Option Nat :=
  match s with
  | [] => if old = [] then some 0 else none
  | c :: cs => if old.isPrefixOf (c :: cs) then some 0 else (findIdx cs old).map (· + 1)

/-- `s.find(old)`. Called by vfpfunc.py:1491-1505 -/
def find (s old : Str) : Int :=
  match findIdx s old with
  | some k => k
  | none => -1

/-- `s.replace(old, new, n)` for non-empty `old`; `none` stands for "all" (a negative count). Called by vfpfunc.py:1491-1505 -/
def replaceFuel (old new : Str) : Nat → Str → Option Nat → Str
  | 0, s, _ => s
  | fuel + 1, s, n =>
    if n = some 0 then s
    else match findIdx s old with
      | none => s
      | some k =>
        s.take k ++ new ++ replaceFuel old new fuel (s.drop (k + old.length)) (n.map (· - 1))

/-- `s.replace('', new, n)`: `new` before every character and at the end. Called by vfpfunc.py:1491-1505 -/
def replaceEmpty (new : Str) : Str → Option Nat → Str
  | s, some 0 => s
  | [], _ => new
  | c :: cs, n => new ++ c :: replaceEmpty new cs (n.map (· - 1))

/-- `s.replace(old, new, n)`. Called by vfpfunc.py:1491-1505 -/
def replaceN (s old new : Str) (n : Option Nat) : Str :=
  if old = [] then replaceEmpty new s n else replaceFuel old new (s.length + 1) s n

/-- The count argument of `str.replace`: a negative one means all. vfpfunc.py:1491-1505 -/
def countArg (n : Int) : Option Nat := if n < 0 then none else some n.toNat

/-- The skipping loop of `strtran`, vfpfunc.py:1493-1500 (no exception can occur in it). -/
def skipLoop (old : Str) : Nat → Str → Str → Str × Str
  | 0, ret, s => (ret, s)
  | n + 1, ret, s =>
    let ind := find s old + old.length
    skipLoop old n (ret ++ slice s none (some ind)) (slice s (some ind) none)

/-- `strtran`, vfpfunc.py:1491-1505; the parameter `flags` is not used by the code.
`maxreplace` is `none` when it is not given. -/
def strtran (s old new : Str) (start : Int) (maxreplace : Option Int) : Str :=
  let p := skipLoop old start.toNat [] s
  match maxreplace with
  | some m => if m ≠ 0 then p.1 ++ replaceN p.2 old new (countArg m) else p.1 ++ replaceN p.2 old new none
  | none => p.1 ++ replaceN p.2 old new none

/-- What the converter emits for STRTRAN with constant arguments, vfp2py_convert_visitor.py:790-806
(`start`, `count` absent or present; the sixth argument 0, 2 or absent): the built-in
`str.replace` when the first occurrence is the start, the library function otherwise. -/
def strtranCall (s old new : Str) (start count : Option Int) : Str :=
  match start, count with
  | none, _ => replaceN s old new none
  | some i, none => if i < 2 then replaceN s old new none else strtran s old new i none
  | some i, some c => if i < 2 then replaceN s old new (countArg c) else strtran s old new i (some c)

/-! ## STUFF -/

/-- `stuff`, vfpfunc.py:1507-1508. -/
def stuff (s : Str) (start num : Int) (repl : Str) : Str :=
  slice s none (some (start - 1)) ++ repl ++ slice s (some (start - 1 + num)) none

/-! ## Words -/

/-- `s.split()` followed by dropping empty words: maximal runs of characters that are not white
space.  `space` is `str.isspace` on single characters. vfpfunc.py:1226-1227 -/
def splitSpace (space : Char → Bool) (s : Str) : List Str :=
  match s with
  | [] => []
  | c :: cs =>
    if space c then splitSpace space cs
    else
      match cs with
      | [] => [[c]]
      | d :: _ =>
        if space d then [c] :: splitSpace space cs
        else match splitSpace space cs with
          | w :: ws => (c :: w) :: ws
          | [] => [[c]]

/-- `s.split(delim)` for non-empty `delim`. vfpfunc.py:1226-1227 -/
def splitFuel (delim : Str) : Nat → Str → List Str
  | 0, s => [s]
  | fuel + 1, s =>
    match findIdx s delim with
    | none => [s]
    | some k => s.take k :: splitFuel delim fuel (s.drop (k + delim.length))

/-- `_getwords`, vfpfunc.py:1226-1227; `none` is the ValueError for an empty separator. -/
def getwords (space : Char → Bool) (s : Str) (delim : Option Str) : Option (List Str) :=
  match delim with
  | none => some (splitSpace space s)
  | some d => if d = [] then none else some ((splitFuel d (s.length + 1) s).filter (· ≠ []))

/-- `getwordcount`, vfpfunc.py:1229-1230. -/
def getwordcount (space : Char → Bool) (s : Str) (delim : Option Str) : Option Nat :=
  (getwords space s delim).map List.length

/-- `getwordnum`, vfpfunc.py:1232-1236; `none` is an exception. -/
def getwordnum (space : Char → Bool) (s : Str) (i : Int) (delim : Option Str) : Option Str :=
  match getwords space s delim with
  | none => none
  | some ws => if 0 ≤ i ∧ i ≤ ws.length then Py.index ws (i - 1) else some []

/-! ## STR -/

/-- `re.match(r'(\d.)(\d+)(E[+-])0*(\d+)', s)` on strings of the form digit, character, digits, `E`,
sign, digits: the four groups.  (The greedy `\d+` stops at the `E`, and `0*` gives back its last
zero when no other digit follows.). vfpfunc.py:1431-1446 -/
def sciGroups (s : Str) : Option (Str × Str × Str × Str) :=
  match s with
  | d :: p :: t =>
    if ¬ d.isDigit ∨ p = '\n' then none
    else
      let m := t.takeWhile Char.isDigit
      match m, t.dropWhile Char.isDigit with
      | [], _ => none
      | m, 'E' :: sg :: e =>
        if sg = '+' ∨ sg = '-' then
          let ds := e.takeWhile Char.isDigit
          if ds = [] then none
          else
            let z := ds.dropWhile (· = '0')
            some ([d, p], m, ['E', sg], if z = [] then ['0'] else z)
        else none
      | _, _ => none
  | _ => none

/-- `s.rjust(n)`. vfpfunc.py:1431-1446 -/
def rjust (s : Str) (n : Int) : Str := List.replicate (n.toNat - s.length) ' ' ++ s

/-- `str`, vfpfunc.py:1431-1446.  `fixed` is `'{:.<decimals>f}'.format(num)`, `sci` is
`'{:E}'.format(num)`; `none` is the AttributeError for a failed match. -/
def strFn (fixed sci : Str) (length decimals : Int) : Option Str :=
  let fin (s : Str) : Option Str :=
    let s := rjust s length
    some (if (s.length : Int) = length then s else List.replicate length.toNat '*')
  if (fixed.length : Int) > length ∧ (fixed.length : Int) - (decimals - 1) ≤ length then
    fin (slice fixed none (some length))
  else if (fixed.length : Int) > length then
    let s := fixed.takeWhile (· ≠ '.')
    if (s.length : Int) ≥ length then
      match sciGroups sci with
      | none => none
      | some (a, b, c, d) =>
        let trim : Int := ((a.length + b.length + c.length + d.length : Nat) : Int) - length
        let b := if trim > 0 then slice b none (some (-trim)) else b
        fin (a ++ b ++ c ++ d)
    else fin s
  else fin fixed

/-! ## STREXTRACT -/

/-- The shortest text before an occurrence of `stop`, not crossing a line feed: what `.*?` followed
by `stop` matches.  `eqc` compares characters (exactly, or ignoring case). vfpfunc.py:1448-1468 -/
def startsWith (eqc : Char → Char → Bool) : Str → Str → Bool
  | [], _ => true
  | _ :: _, [] => false
  | p :: ps, c :: cs => eqc p c && startsWith eqc ps cs

/-- vfpfunc.py:1448-1468 -/
def lazyUpTo (eqc : Char → Char → Bool) (stop : Str) : Str → Option Str
  | [] => if startsWith eqc stop [] then some [] else none
  | c :: cs =>
    if startsWith eqc stop (c :: cs) then some []
    else if c = '\n' then none
    else (lazyUpTo eqc stop cs).map (c :: ·)

/-- A match of the pattern at the start of `s`: the text between and the number of characters
matched.  Without an end delimiter `.*` takes the rest of the line. vfpfunc.py:1448-1468 -/
def extractHere (eqc : Char → Char → Bool) (b e : Str) (s : Str) : Option (Str × Nat) :=
  if startsWith eqc b s then
    let t := s.drop b.length
    if e = [] then
      let m := t.takeWhile (· ≠ '\n')
      some (m, b.length + m.length)
    else
      (lazyUpTo eqc e t).map fun m => (m, b.length + m.length + e.length)
  else none

/-- `re.findall` for a non-empty opening delimiter: matches are never empty, so the search goes on
right after each.  Every element is the text between and the whole match. vfpfunc.py:1448-1468 -/
def findAll (eqc : Char → Char → Bool) (b e : Str) : Nat → Str → List (Str × Str)
  | 0, _ => []
  | fuel + 1, s =>
    match extractHere eqc b e s with
    | some (m, n) => (m, s.take n) :: findAll eqc b e fuel (s.drop n)
    | none =>
      match s with
      | [] => []
      | _ :: cs => findAll eqc b e fuel cs

/-- `re.escape` (Python 3.7 and later). vfpfunc.py:1448-1468 -/
def special : List Char := "()[]{}?*+-|^$\\.&~# \t\n\r\x0b\x0c".toList

/-- vfpfunc.py:1448-1468 -/
def escape (s : Str) : Str := s.flatMap fun c => if c ∈ special then ['\\', c] else [c]

/-- `strextract`, vfpfunc.py:1448-1468, for a non-empty `begin` and flag bits given separately
(`ci` = 1, `endOptional` = 2, `keep` = 4).  `eqs ci` compares characters.  The fall-back call gets
the already escaped `begin`. -/
def strextract (eqs : Bool → Char → Char → Bool) (s b e : Str) (occ : Int)
    (ci endOptional keep : Bool) : Str :=
  let pick (l : List (Str × Str)) : Option Str :=
    (Py.index l (occ - 1)).map fun p => if keep then p.2 else p.1
  match pick (findAll (eqs ci) b e (s.length + 1) s) with
  | some r => r
  | none =>
    if endOptional ∧ e ≠ [] then
      (pick (findAll (eqs ci) (escape b) [] (s.length + 1) s)).getD []
    else []

/-! ## LIKE -/

/-- The pieces of the regular expression `like` builds from a pattern without regular-expression
characters other than `.`, `*` and `?`. vfpfunc.py:1255-1257 -/
inductive Piece where
  | lit (c : Char)
  | any
  | many
  deriving DecidableEq, Repr

/-- vfpfunc.py:1256. -/
def pieces (p : Str) : List Piece :=
  p.map fun c => if c = '*' then .many else if c = '?' then .any else .lit c

/-- `.*` before the rest of the expression: some number of characters, none a line feed. vfpfunc.py:1255-1257 -/
def tryMany (rest : Str → Bool) : Str → Bool
  | [] => rest []
  | d :: ds => rest (d :: ds) || (d != '\n' && tryMany rest ds)

/-- Whether `re.match` succeeds: some prefix of the string matches; a dot does not match a line
feed. vfpfunc.py:1255-1257 -/
def matchPrefix : List Piece → Str → Bool
  | [], _ => true
  | .lit c :: ps, s =>
    match s with
    | d :: ds => c == d && matchPrefix ps ds
    | [] => false
  | .any :: ps, s =>
    match s with
    | d :: ds => d != '\n' && matchPrefix ps ds
    | [] => false
  | .many :: ps, s => tryMany (matchPrefix ps) s

/-- `like`, vfpfunc.py:1255-1257, for patterns without the characters of regular expressions (`()[]{}+|^$` and the backslash),
which the code passes on. -/
def like (p s : Str) : Bool := matchPrefix (pieces p) s

/-! ## ATLINE, RATLINE -/

/-- `s.rfind(sub)`. vfpfunc.py:1421-1422 -/
def rfindIdx (s sub : Str) : Option Nat :=
  match s with
  | [] => if sub = [] then some 0 else none
  | c :: cs =>
    match rfindIdx cs sub with
    | some k => some (k + 1)
    | none => if sub.isPrefixOf (c :: cs) then some 0 else none

/-- `atline`, vfpfunc.py:1136-1137. -/
def atline (search s : Str) : Nat :=
  (slice s none (some (find s search + 1))).count '\r' + 1

/-- `ratline`, vfpfunc.py:1421-1422. -/
def ratline (search s : Str) : Nat :=
  (slice s none (some ((match rfindIdx s search with
    | some k => (k : Int)
    | none => -1) + 1))).count '\r' + 1

end Model.Strings
