import Verif.Model.FxpHeader
import Verif.Model.FxpTables
/-!
# FXP code areas: expressions, lines, blocks

Source: `/repo/vfp2py/fxp_read.py:70-257` and `1332-1434`.  A file position is represented by the
list of the bytes from there on; `seek` backwards happens only to a position whose rest is
still at hand.  Formatting of floating point numbers and of dates (codes E6, E7, EE, FA) is not
modelled here (see FxpNumbers and FxpDates): it is the parameter `fmt`, an arbitrary function of the bytes (`none`: it raises).
-/
namespace Model.Fxp

/-- Python exceptions of the decoder; `fuel` does not occur (see `Lemmas/FxpCode`). Raised in fxp_read.py:70-257, 1332-1434 -/
inductive DErr where
  | indexError | keyError | structError | unboundLocal | valueError | fuel
  deriving DecidableEq, Repr

/-- Objects handled by the decoder: an `int`, `FXPAlias`, `FXPName`, a plain `str`, a number object
or a list (with its `repr`).  fxp_read.py:70-101. -/
inductive Obj where
  | int (n : Nat)
  | alias (s : String)
  | name (s : String)
  | str (s : String)
  | num (s : String)
  | list (s : String)
  deriving DecidableEq, Repr

/-- `repr`.  Plain strings that occur contain neither quotes nor backslashes. fxp_read.py:70-101 -/
def Obj.repr : Obj → String
  | .int n => toString n
  | .alias s => s ++ "."
  | .name s => s
  | .str s => "'" ++ s ++ "'"
  | .num s => s
  | .list s => s

/-- `str`, as applied by `FXPName.__init__` (fxp_read.py:72); the classes define only `__repr__`. -/
def Obj.text : Obj → String
  | .str s => s
  | o => o.repr

/-- fxp_read.py:77-79 -/
def Obj.isAlias : Obj → Bool
  | .alias _ => true
  | _ => false

/-- A position in the file, fxp_read.py:45-67 -/
abbrev Rest := List Nat

/-- fxp_read.py:274 -/
def endExpr : Nat := 0xFD
/-- fxp_read.py:275 -/
def parameterMark : Nat := 0x43

/-- `fid.read(1)[0]`. Such as fxp_read.py:185 -/
def read1 (r : Rest) : Except DErr (Nat × Rest) :=
  match r with
  | [] => .error .indexError
  | x :: t => .ok (x, t)

/-- `struct.unpack('<..', fid.read(k))` of an unsigned number, fxp_read.py:1335-1342. -/
def readUInt (k : Nat) (r : Rest) : Except DErr (Nat × Rest) :=
  if r.length < k then .error .structError else .ok (leDecode (r.take k), r.drop k)

/-- Signed variants, fxp_read.py:1332,1338. -/
def readSInt (k : Nat) (r : Rest) : Except DErr (Int × Rest) :=
  if r.length < k then .error .structError
  else
    let n := leDecode (r.take k)
    .ok (if n < 2 ^ (8 * k - 1) then (n : Int) else (n : Int) - 2 ^ (8 * k), r.drop k)

/-- `.decode('ISO-8859-1')`. -/
def latin1 (b : List Nat) : String := String.ofList (b.map Char.ofNat)

/-- `read_string`, fxp_read.py:108: a short read at the end of the file gives a short string. -/
def readString (r : Rest) : Except DErr (String × Rest) :=
  match readUInt 2 r with
  | .error e => .error e
  | .ok (n, r) => .ok (latin1 (r.take n), r.drop n)

/-- `'{:0{d}.0f}'.format(n)` for an integer: sign-aware zero padding, fxp_read.py:82-90. -/
def zeroPad (digits : Nat) (n : Int) : String :=
  let s := toString n.natAbs
  if n < 0 then "-" ++ String.ofList (List.replicate (digits - 1 - s.length) '0') ++ s
  else String.ofList (List.replicate (digits - s.length) '0') ++ s

/-- `'{:02x}'.format(d)`. -/
def hexByte (d : Nat) : String :=
  let h (k : Nat) : Char := if k < 10 then Char.ofNat (48 + k) else Char.ofNat (87 + k)
  String.ofList [h (d / 16), h (d % 16)]

/-- `read_raw`, fxp_read.py:180. -/
def rawText (b : List Nat) : String := " ".intercalate (b.map hexByte)

/-- `table[key]`. Such as fxp_read.py:165-175 -/
def tableGet (t : List (Nat × String)) (k : Nat) : Except DErr String :=
  match t.lookup k with
  | some s => .ok s
  | none => .error .keyError

/-- `names[i]` for an unsigned `i`. fxp_read.py:162-163, 177-178 -/
def nameAt (names : List String) (i : Nat) : Except DErr String :=
  match names[i]? with
  | some s => .ok s
  | none => .error .indexError

/-- `read_name` (and the argument of `read_alias`), fxp_read.py:162,177. -/
def readName (names : List String) (r : Rest) : Except DErr (String × Rest) :=
  match readUInt 2 r with
  | .error e => .error e
  | .ok (i, r) =>
    match nameAt names i with
    | .error e => .error e
    | .ok s => .ok (s, r)

/-- A table lookup keyed by the next byte (system names, extended functions, ...). fxp_read.py:165-175, 183-245 -/
def readKeyed (t : List (Nat × String)) (r : Rest) : Except DErr (String × Rest) :=
  match read1 r with
  | .error e => .error e
  | .ok (k, r) =>
    match tableGet t k with
    | .error e => .error e
    | .ok s => .ok (s, r)

/-- `read_int8/16/32`, fxp_read.py:117-127: a digit count, then the number. -/
def readDigits (k : Nat) (signed : Bool) (r : Rest) : Except DErr (Obj × Rest) :=
  match read1 r with
  | .error e => .error e
  | .ok (d, r) =>
    if signed then
      match readSInt k r with
      | .error e => .error e
      | .ok (n, r) => .ok (.num (zeroPad d n), r)
    else
      match readUInt k r with
      | .error _ => .error .indexError
      | .ok (n, r) => .ok (.num (zeroPad d n), r)

/-- `read_currency` and `FXPCurrency.__repr__`, fxp_read.py:92-101,137-140. -/
def readCurrency (r : Rest) : Except DErr (Obj × Rest) :=
  match r with
  | _ :: dec :: r =>
    match readSInt 8 r with
    | .error e => .error e
    | .ok (n, r) =>
      let base : Int := 10 ^ dec
      .ok (.num ("$" ++ toString (n.fdiv base) ++ "." ++ toString (n.fmod base)), r)
  | _ => .error .indexError

/-- The codes of `VALUES` whose entry is a function, fxp_read.py:830-863. -/
def valueReaders : List Nat :=
  [0xD9, 0xDE, 0xE0, 0xE1, 0xE3, 0xE6, 0xE7, 0xE9, 0xEB, 0xEC, 0xED, 0xEE, 0xF0, 0xF1, 0xF2, 0xF3,
   0xF4, 0xF5, 0xF7, 0xF8, 0xF9, 0xFA, 0xFB, 0xFC, 0xFF]

/-- Number of bytes read by the readers whose text is the parameter `fmt`. fxp_read.py:129-160, 830-863 -/
def fmtBytes (code : Nat) : Option Nat :=
  if code = 0xE6 ∨ code = 0xEE then some 8
  else if code = 0xE7 then some 4
  else if code = 0xFA then some 10
  else none

/-- Dates come back as `str`, numbers as number objects. fxp_read.py:129-160 -/
def fmtObj (code : Nat) (s : String) : Obj :=
  if code = 0xE6 ∨ code = 0xEE then .str s else .num s

/-- Pop aliases from the top of the stack in front of a name, fxp_read.py:202-203,228-229
(the stack is kept with its top first). -/
def takeAliases : List Obj → String → String × List Obj
  | .alias a :: st, s => takeAliases st ((a ++ ".") ++ s)
  | st, s => (s, st)

/-- Pop parameters down to the parameter mark (or everything), fxp_read.py:207-212:
the parameters in order, and the remaining stack. -/
def popParams : List Obj → List Obj → List Obj × List Obj
  | [], acc => (acc, [])
  | .int n :: st, acc => if n = parameterMark then (acc, st) else popParams st (.int n :: acc)
  | o :: st, acc => popParams st (o :: acc)

/-- Text of a call, fxp_read.py:213. -/
def callText (f : String) (params : List Obj) : String :=
  f ++ "(" ++ ", ".intercalate (params.map Obj.repr) ++ ")"

/-- What read_next_code does with a value object, fxp_read.py:227-236. -/
def wrapValue (o : Obj) (st : List Obj) : Obj × List Obj :=
  match o with
  | .name s => let p := takeAliases st s; (.name p.1, p.2)
  | .alias s => (.alias s, st)
  | .int n => (.name (toString n), st)
  | o => (.name o.text, st)

/-- The value readers of `VALUES` (fxp_read.py:830-863) that do not call back into the
expression decoder; `none` when the code has no such reader. -/
def readSimple (fmt : Nat → List Nat → Option String) (names : List String) (code : Nat) (r : Rest) :
    Option (Except DErr (Obj × Rest)) :=
  match valueConstants.lookup code with
  | some s => some (.ok (.str s, r))
  | none =>
    match fmtBytes code with
    | some k =>
      some (if r.length < k then .error .structError
        else match fmt code (r.take k) with
          | none => .error .valueError
          | some s => .ok (fmtObj code s, r.drop k))
    | none =>
      if code = 0xD9 then some (match readString r with
        | .error e => .error e
        | .ok (s, r) => .ok (.name ("\"" ++ s ++ "\""), r))
      else if code = 0xFB then some (match readString r with
        | .error e => .error e
        | .ok (s, r) => .ok (.name ("'" ++ s ++ "'"), r))
      else if code = 0xDE then some (readCurrency r)
      else if code = 0xE0 ∨ code = 0xF7 then some (match readName names r with
        | .error e => .error e
        | .ok (s, r) => .ok (.name s, r))
      else if code = 0xE3 ∨ code = 0xF4 then some (match readName names r with
        | .error e => .error e
        | .ok (s, r) => .ok (.alias s, r))
      else if code = 0xE1 then some (match readKeyed systemNames r with
        | .error e => .error e
        | .ok (s, r) => .ok (.alias s, r))
      else if code = 0xF5 then some (match readKeyed specialNames r with
        | .error e => .error e
        | .ok (s, r) => .ok (.alias s, r))
      else if code = 0xED then some (match readKeyed systemNames r with
        | .error e => .error e
        | .ok (s, r) => .ok (.name s, r))
      else if code = 0xEC then some (match readKeyed menuSystemNames r with
        | .error e => .error e
        | .ok (s, r) => .ok (.name s, r))
      else if code = 0xE9 then some (readDigits 4 true r)
      else if code = 0xF8 then some (readDigits 1 false r)
      else if code = 0xF9 then some (readDigits 2 true r)
      else if code = 0xF0 then some (match readUInt 2 r with
        | .error e => .error e
        | .ok (n, r) => .ok (.str ("(SHORT CIRCUIT AND IN " ++ toString n ++ ")"), r))
      else if code = 0xF1 then some (match readUInt 2 r with
        | .error e => .error e
        | .ok (n, r) => .ok (.str ("(SHORT CIRCUIT OR IN " ++ toString n ++ ")"), r))
      else if code = 0xF2 ∨ code = 0xF3 then some (match readUInt 2 r with
        | .error e => .error e
        | .ok (n, r) => .ok (.str ("(SHORT CIRCUIT IIF IN " ++ toString n ++ ")"), r))
      else if code = 0xFF then some (.ok (.str ("ff " ++ rawText (r.take 2)), r.drop 2))
      else none

/-- The name of a built-in function (fxp_read.py:198-206) other than the user defined ones. -/
def readFunction (code : Nat) (r : Rest) : Option (Except DErr (String × Rest)) :=
  match functions.lookup code with
  | some s => some (.ok (s, r))
  | none =>
    if code = 0x1A then some (readKeyed extended1 r)
    else if code = 0xEA then some (readKeyed extended2 r)
    else none

/-- Apply an operator with `k > 0` operands, fxp_read.py:219-224 (only 1 and 2 occur). -/
def applyOp (op : String) (k : Int) (st : List Obj) : Except DErr (Obj × List Obj) :=
  if k = 1 then
    match st with
    | a :: st => .ok (.name ("(" ++ op ++ " " ++ a.repr ++ ")"), st)
    | [] => .error .indexError
  else
    match st with
    | b :: a :: st => .ok (.name ("(" ++ a.repr ++ (" " ++ op ++ " ") ++ b.repr ++ ")"), st)
    | _ => .error .indexError

/-- Text of a result list: `repr(list)`. fxp_read.py:183-257 -/
def listRepr (st : List Obj) : String := "[" ++ ", ".intercalate (st.reverse.map Obj.repr) ++ "]"

/-- fxp_read.py:1359-1366: drop an `int` in second-last place, join the `repr`s. -/
def joinLine (line : List Obj) : String :=
  let l := match line with
    | x :: .int _ :: t => x :: t
    | l => l
  " ".intercalate (l.reverse.map Obj.repr)

mutual

/-- `read_next_code`, fxp_read.py:183-245: the object read and the remaining stack. -/
def readNext (fmt : Nat → List Nat → Option String) (names : List String) :
    Nat → Rest → List Obj → Except DErr (Obj × List Obj × Rest)
  | 0, _, _ => .error .fuel
  | fuel + 1, r, st =>
    match read1 r with
    | .error e => .error e
    | .ok (code, r) =>
      if code = endExpr then .ok (.int code, st, r)
      else if code = parameterMark then .ok (.int code, st, r)
      else if code = 0xE8 then
        match readUInt 2 r with
        | .error e => .error e
        | .ok (length, r) =>
          match subline fmt names fuel r length (r.drop 1) [] none with
          | .error e => .error e
          | .ok s => .ok (.name ("(SELECT " ++ s ++ ")"), st, r.drop length)
      else if code = 0xE5 ∨ code = 0xF6 then
        match readName names r with
        | .error e => .error e
        | .ok (s, r) =>
          let p := takeAliases st s
          let q := popParams p.2 []
          let t := callText p.1 q.1
          .ok (if code = 0xE5 then .alias t else .name t, q.2, r)
      else
        match readFunction code r with
        | some (.error e) => .error e
        | some (.ok (s, r)) =>
          let q := popParams st []
          .ok (.name (callText s q.1), q.2, r)
        | none =>
          match operators.lookup code with
          | some (op, k) =>
            if k = 0 then readNext fmt names fuel r st
            else if k > 0 then
              match applyOp op k st with
              | .error e => .error e
              | .ok (o, st) => .ok (o, st, r)
            else .ok (.str op, st, r)
          | none =>
            match readValue fmt names fuel code r with
            | .error e => .error e
            | .ok (o, r) =>
              if code = 0xF0 ∨ code = 0xF1 then readNext fmt names fuel r st
              else
                let p := wrapValue o st
                .ok (p.1, p.2, r)

/-- The entries of `VALUES`, called with `(fid, names)`. fxp_read.py:830-863 -/
def readValue (fmt : Nat → List Nat → Option String) (names : List String) :
    Nat → Nat → Rest → Except DErr (Obj × Rest)
  | 0, _, _ => .error .fuel
  | fuel + 1, code, r =>
    match readSimple fmt names code r with
    | some x => x
    | none =>
      if code = 0xEB then
        match readNext fmt names fuel r [] with
        | .error e => .error e
        | .ok (o, _, r) => .ok (o, r)
      else if code = 0xFC then readExpr fmt names fuel r []
      else .error .keyError

/-- `read_expr`, fxp_read.py:247-257. -/
def readExpr (fmt : Nat → List Nat → Option String) (names : List String) :
    Nat → Rest → List Obj → Except DErr (Obj × Rest)
  | 0, _, _ => .error .fuel
  | fuel + 1, r, st =>
    match readNext fmt names fuel r st with
    | .error e => .error e
    | .ok (o, st, r) =>
      if o = .int endExpr then
        match st with
        | [x] => .ok (x, r)
        | st => .ok (.list (listRepr st), r)
      else readExpr fmt names fuel r (o :: st)

/-- `parse_subline`, fxp_read.py:1344-1368: `start` is the rest of the file at `final - length`,
`r` at the current position, `line` the objects so far (last first), `stale` the value of the
variable `clause` left by the previous turn.  The position afterwards is that of
`start.drop length`. -/
def subline (fmt : Nat → List Nat → Option String) (names : List String) :
    Nat → Rest → Nat → Rest → List Obj → Option Obj → Except DErr String
  | 0, _, _, _, _, _ => .error .fuel
  | fuel + 1, start, length, r, line, stale =>
    if start.length - r.length < length then
      match read1 r with
      | .error e => .error e
      | .ok (code, r) =>
        if code = 0xF6 ∨ code = 0xF7 then
          match readName names r with
          | .error e => .error e
          | .ok (s, r) =>
            let p := takeAliases line s
            subline fmt names fuel start length r (.name p.1 :: p.2) (some (.name p.1))
        else if code = 0xE5 then
          match readName names r with
          | .error e => .error e
          | .ok (s, r) => subline fmt names fuel start length r (.name s :: line) (some (.name s))
        else
          match multiClauses.lookup code with
          | some s => subline fmt names fuel start length r (.name s :: line) (some (.name s))
          | none =>
            match valueConstants.lookup code with
            | some s => subline fmt names fuel start length r (.name s :: line) (some (.name s))
            | none =>
              if code = 0xE8 then
                subline fmt names fuel start length r (.name "SQL SUBQUERY" :: line)
                  (some (.name "SQL SUBQUERY"))
              else
                match clauses.lookup code with
                | some s => subline fmt names fuel start length r (.name s :: line) (some (.name s))
                | none =>
                  if code ∈ valueReaders then
                    match readValue fmt names fuel code r with
                    | .error e => .error e
                    | .ok (o, r) => subline fmt names fuel start length r (o :: line) (some o)
                  else
                    match stale with
                    | none => .error .unboundLocal
                    | some c =>
                      subline fmt names fuel start length r (.name c.text :: line) (some (.name c.text))
    else .ok (joinLine line)

end

/-- Enough fuel for any decoding that starts with `r` (see `Lemmas/FxpFuel`).
No counterpart in fxp_read.py:183-257, which recurses freely -/
def enough (r : Rest) : Nat := 3 * r.length + 3

/-- `read_expr(fid, names)` at a position. fxp_read.py:247-257 -/
def decodeExpr (fmt : Nat → List Nat → Option String) (names : List String) (r : Rest) :
    Except DErr (Obj × Rest) := readExpr fmt names (enough r) r []

/-- `fid.read(k)` for a signed count. fxp_read.py:49-50 -/
def readN (r : Rest) (k : Int) : Except DErr (List Nat × Rest) :=
  if k < -1 then .error .valueError
  else if k = -1 then .ok (r, [])
  else .ok (r.take k.toNat, r.drop k.toNat)

/-- The command of a line, fxp_read.py:1373-1377 and the functions in `COMMANDS`
(`read_setcode` 259, `read_text` 262): the objects it contributes (last first). -/
def readCommand (r : Rest) (length : Int) : Except DErr (List Obj × Rest) :=
  match read1 r with
  | .error e => .error e
  | .ok (code, r) =>
    if code = 0x01 ∨ code = 0xB4 then
      match readN r length with
      | .error e => .error e
      | .ok (b, r) => .ok ([.name ((if code = 0x01 then "RAW CODE: " else "BAD CODE: ") ++ latin1 b)], r)
    else if code = 0x30 then
      match readN r length with
      | .error e => .error e
      | .ok (b, r) => .ok ([.name (latin1 b), .name "NOTE"], r)
    else if code = 0x47 then
      match readKeyed setCodes r with
      | .error e => .error e
      | .ok (s, r) => .ok ([.name ("SET " ++ s)], r)
    else if code = 0x54 ∨ code = 0x99 then .ok ([], r)
    else if code = 0xFB then
      match readString r with
      | .error e => .error e
      | .ok (s, r) => .ok ([.name s], r)
    else
      match tableGet commands code with
      | .error e => .error e
      | .ok s => .ok ([.name s], r)

/-- `parse_line`, fxp_read.py:1370-1378, including the final `seek`/`read_raw` of `parse_subline`
(1361-1367), which leave the position at the end of the line. -/
def parseLine (fmt : Nat → List Nat → Option String) (names : List String) (start : Rest)
    (length : Int) : Except DErr (String × Rest) :=
  match readCommand start (length - 1) with
  | .error e => .error e
  | .ok (line, r) =>
    match subline fmt names (enough r) start length.toNat r line none with
    | .error e => .error e
    | .ok s =>
      match readN start length with
      | .error e => .error e
      | .ok (_, rest) => .ok (s, rest)

/-- The handler of `read_code_line_area`, fxp_read.py:1388-1394: hexadecimal dump. -/
def dumpLine (start : Rest) : Except DErr (String × Rest) :=
  match readUInt 2 start with
  | .error e => .error e
  | .ok (length, r) =>
    match readN r ((length : Int) - 2) with
    | .error e => .error e
    | .ok (b, rest) => .ok (rawText b, rest)

/-- One turn of the loop, fxp_read.py:1383-1394; `line` decodes a line. -/
def codeLine (line : Rest → Int → Except DErr (String × Rest)) (start : Rest) :
    Except DErr (String × Rest) :=
  match readUInt 2 start with
  | .error _ => dumpLine start
  | .ok (length, r) =>
    match line r ((length : Int) - 2) with
    | .error _ => dumpLine start
    | .ok x => .ok x

/-- The loop of `read_code_line_area`, fxp_read.py:1380-1394, before the pieces are joined;
`budget` is `final_fpos - fid.tell()`. -/
def codeLines (line : Rest → Int → Except DErr (String × Rest)) :
    Nat → Rest → Nat → Except DErr (List String × Rest)
  | 0, _, _ => .error .fuel
  | fuel + 1, r, budget =>
    if budget = 0 then .ok ([], r)
    else
      match codeLine line r with
      | .error e => .error e
      | .ok (s, r') =>
        match codeLines line fuel r' (budget - (r.length - r'.length)) with
        | .error e => .error e
        | .ok (ss, r'') => .ok (s :: ss, r'')

/-- `read_code_name_list`, fxp_read.py:1397-1399. -/
def readNames : Nat → Rest → Except DErr (List String)
  | 0, _ => .ok []
  | n + 1, r =>
    match readString r with
    | .error e => .error e
    | .ok (s, r) =>
      match readNames n r with
      | .error e => .error e
      | .ok ss => .ok (s :: ss)

/-- fxp_read.py:1397-1399 -/
def readNameList (r : Rest) : Except DErr (List String) :=
  match readUInt 2 r with
  | .error e => .error e
  | .ok (n, r) => readNames n r

/-- The length field of a code block, fxp_read.py:1426-1428. -/
def blockLength (r : Rest) : Except DErr (Nat × Rest) :=
  match readUInt 2 r with
  | .error e => .error e
  | .ok (n, r) => if n = 0 then readUInt 4 r else .ok (n, r)

/-- `read_code_block`, fxp_read.py:1425-1434: the decoded lines, before `''.join`. -/
def readCodeBlock (fmt : Nat → List Nat → Option String) (r : Rest) : Except DErr (List String) :=
  match blockLength r with
  | .error e => .error e
  | .ok (total, r) =>
    match readNameList (r.drop total) with
    | .error e => .error e
    | .ok names =>
      match codeLines (parseLine fmt names) (r.length + 1) r total with
      | .error e => .error e
      | .ok (ss, _) => .ok ss

end Model.Fxp
