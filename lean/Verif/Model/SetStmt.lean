import Verif.Model.Settings
/-!
# Model of the conversion of SET statements

`visitSetCmd` of `vfp2py_convert_visitor.py` for the words with ON and OFF, BELL, CENTURY,
COMPATIBLE, INDEX, NOTIFY and REFRESH (SET INDEX TO without a name is not modelled); the call it makes is that of `Model/Settings.lean`.
-/
namespace Model.SetStmt
open Model.Settings

/-- The keywords of VisualFoxpro9.g4:262-302 that are modelled. -/
inductive Token where
  | assert | asserts | bell | century | compatible | console | cursor | delete | deleted | escape | exact | exclusive
  | index | multilocks | near | notify | refresh | safety | status | step | tableprompt | talk | unique
  deriving DecidableEq, Repr

/-- The texts of a keyword in lower case. VisualFoxpro9.g4:773-774, 779, 792, 805-812, 824-825, 853-857, 888, 918-936, 971, 989, 1009-1035 -/
def spellings : Token → List Str
  | .assert => ["asse", "asser", "assert"].map String.toList
  | .asserts => ["asserts".toList]
  | .bell => ["bell".toList]
  | .century => ["cent", "centu", "centur", "century"].map String.toList
  | .compatible => ["compatible".toList]
  | .console => ["console".toList]
  | .cursor => ["curs", "curso", "cursor"].map String.toList
  | .delete => ["dele", "delet", "delete"].map String.toList
  | .deleted => ["deleted".toList]
  | .escape => ["escape".toList]
  | .exact => ["exac", "exact"].map String.toList
  | .exclusive => ["excl", "exclusive"].map String.toList
  | .index => ["index".toList]
  | .multilocks => ["multilocks".toList]
  | .near => ["near".toList]
  | .notify => ["notify".toList]
  | .refresh => ["refresh".toList]
  | .safety => ["safe", "safet", "safety"].map String.toList
  | .status => ["status".toList]
  | .step => ["step".toList]
  | .tableprompt => ["tableprompt".toList]
  | .talk => ["talk".toList]
  | .unique => ["unique".toList]

/-- VisualFoxpro9.g4:269 -/
inductive Mode where
  | on | off | db4 | foxplus
  deriving DecidableEq, Repr

/-- What follows the keyword; expressions are given by their values. VisualFoxpro9.g4:264-301 -/
inductive Tail where
  | onOff (on : Bool)
  | bellTo (file : Val)
  | centuryTo (century : Option (Val × Option Val))
  | mode (m : Mode) (prompt : Option Bool)
  | notify (cursor on : Bool)
  | indexTo (v : Val)
  | refreshTo (a : Val) (b : Option Val)

/-- A SET statement: keyword, its text as typed, BAR, and the rest. VisualFoxpro9.g4:262-302 -/
structure Stmt where
  tok : Token
  text : Str
  bar : Bool
  tail : Tail

/-- The rule `setCmd`, VisualFoxpro9.g4:264-301. -/
def Stmt.Parses (s : Stmt) : Prop :=
  lower s.text ∈ spellings s.tok ∧ (s.bar = true → s.tok = .status) ∧
  match s.tok, s.tail with
  | .bell, .onOff _ => True
  | .bell, .bellTo _ => True
  | .century, .onOff _ => True
  | .century, .centuryTo _ => True
  | .compatible, .mode _ _ => True
  | .notify, .notify _ _ => True
  | .refresh, .refreshTo _ _ => True
  | .index, .indexTo _ => True
  | .bell, _ => False
  | .century, _ => False
  | .compatible, _ => False
  | .notify, _ => False
  | .refresh, _ => False
  | .index, _ => False
  | _, .onOff _ => True
  | _, _ => False

/-- `ctx.ON()`, vfp2py_convert_visitor.py:1791-1883 -/
def Tail.hasOn : Tail → Bool
  | .onOff b => b
  | .mode m _ => m == .on
  | .notify _ b => b
  | _ => false

/-- `'ON' if ctx.ON() else 'OFF'`, vfp2py_convert_visitor.py:1818-1850 -/
def onOffArg (t : Tail) : Val := if t.hasOn then .str "ON".toList else .str "OFF".toList

/-- The words of vfp2py_convert_visitor.py:1819. -/
def onOffWords : List Str :=
  ["cursor", "deleted", "escape", "exact", "exclusive", "multilocks", "near", "status", "status bar", "tableprompt", "talk",
    "unique"].map String.toList

/-- `visitSetCmd`, vfp2py_convert_visitor.py:1791-1885: the word and the arguments of the call of
`vfpfunc.set`; `none` is the comment `#FIX ME` that `visitLine` (189-202) writes instead. -/
def visitSetCmd (s : Stmt) : Option (Str × List Val × Kw) :=
  let setword := if s.bar then lower s.text ++ " bar".toList else lower s.text
  if setword = "bell".toList then
    match s.tail with
    | .bellTo v => some (setword, [.str "TO".toList, v], {})
    | t => some (setword, [onOffArg t], {})
  else if setword ∈ onOffWords then some (setword, [onOffArg s.tail], {})
  else if setword = "century".toList then
    match s.tail with
    | .centuryTo none => some (setword, [], { century := some (.int 19), rollover := some (.int 67) })
    | .centuryTo (some (c, none)) => some (setword, [], { century := some c, rollover := some (.int 67) })
    | .centuryTo (some (c, some r)) => some (setword, [], { century := some c, rollover := some r })
    | t => some (setword, [onOffArg t], {})
  else if setword = "compatible".toList then
    match s.tail with
    | .mode m p =>
      let a : Val := if m = .on ∨ m = .db4 then .str "ON".toList else .str "OFF".toList
      match p with
      | none => some (setword, [a], {})
      | some true => some (setword, [a, .str "PROMPT".toList], {})
      | some false => some (setword, [a, .str "NOPROMPT".toList], {})
    | t => some (setword, [onOffArg t], {})
  else if setword = "refresh".toList then
    match s.tail with
    | .refreshTo a none => some (setword, [a, .int 5], {})
    | .refreshTo a (some b) => some (setword, [a, b], {})
    | _ => some (setword, [.int 5], {})
  else if setword = "notify".toList then
    match s.tail with
    | .notify true b => some (setword, [], { cursor := some (onOffArg (.notify true b)) })
    | t => some (setword, [onOffArg t], {})
  else if setword = "index".toList then
    match s.tail with
    | .indexTo v => some (setword, [v], {})
    | _ => none
  else none

/-- The statement in the converted program: a call of `set`, or nothing. vfp2py_convert_visitor.py:189-202, 1885 -/
def exec (st : State) (s : Stmt) : State × Option Err :=
  match visitSetCmd s with
  | none => (st, none)
  | some (w, args, kw) => setCmd st w args kw

/-- Statements one after the other, exceptions being caught by the program. vfp2py_convert_visitor.py:219-225 -/
def execAll (st : State) (l : List Stmt) : State := l.foldl (fun st s => (exec st s).1) st

end Model.SetStmt
