/-!
# The library calls of the remaining commands

What the visitors write for commands about the program, windows, menus, forms and events
(vfp2py_convert_visitor.py), and whether `vfpfunc` has a function that takes the call.  Commands for which
the visitor returns nothing become a comment (`visitLine`, 191-206).  The values of the arguments are not
looked at.
-/
namespace Model.Commands

/-- Names of functions and keywords in vfp2py_convert_visitor.py:406-2039 -/
abbrev Name := String

/-- A call `vfpfunc.name(..)` with the number of positional arguments and the keywords. vfp2py_convert_visitor.py:106-112 -/
structure Call where
  name : Name
  npos : Nat
  kws : List Name
  deriving DecidableEq, Repr

/-- What a command becomes: a call, an assignment to an attribute of the module, an assignment to an
element of an attribute of it, or nothing. vfp2py_convert_visitor.py:106-124 -/
inductive Code where
  | call (c : Call)
  | setAttribute (x : Name)
  | setItem (x : Name)
  | nothing
  deriving DecidableEq, Repr

/-- A function of the library: parameters, how many of them have defaults (the last ones), and whether it
has `*args`. The `def` lines of vfpfunc.py:1136-1712 -/
structure Sig where
  params : List Name
  optional : Nat
  varargs : Bool
  deriving DecidableEq, Repr

/-- The functions of vfpfunc.py among those that commands name. -/
def library : Name → Option Sig
  | "quit" => some ⟨["message", "flags", "title"], 3, false⟩                                        -- :1418
  | "wait" => some ⟨["msg", "to", "window", "nowait", "noclear", "timeout"], 5, false⟩                -- :1632
  | "gather" => some ⟨["val", "fields", "fieldstype", "memo"], 4, false⟩                              -- :1634
  | "scatter" => some ⟨["totype", "name", "fields", "fieldstype", "memo", "blank"], 6, false⟩          -- :1637
  | "text" => some ⟨["text_lines", "show"], 1, false⟩                                                -- :1685
  | "clear" => some ⟨[], 0, true⟩                                                                    -- :1709
  | _ => none

/-- The module attributes that exist before an assignment; `error_func`, vfpfunc.py:1721. -/
def attributes : List Name := ["error_func"]

/-- Python's binding of the arguments of a call. The call written by vfp2py_convert_visitor.py:106-112 -/
def accepts (s : Sig) (npos : Nat) (kws : List Name) : Bool :=
  (decide (npos ≤ s.params.length) || s.varargs) &&
  kws.all (fun k => decide (k ∈ s.params.drop npos)) && decide kws.Nodup &&
  ((s.params.take (s.params.length - s.optional)).drop npos).all fun k => decide (k ∈ kws)

/-- Whether running the code raises no AttributeError and no TypeError of the call.
The code written by vfp2py_convert_visitor.py:106-124 -/
def runs : Code → Bool
  | .call c => match library c.name with
    | some s => accepts s c.npos c.kws
    | none => false
  | .setAttribute _ => true
  | .setItem x => decide (x ∈ attributes)
  | .nothing => false

/-- Restriction of SCATTER and GATHER to fields. vfp2py_convert_visitor.py:1738-1776 -/
inductive Fields where
  | all | list | like | except_
  deriving DecidableEq, Repr

/-- Where SCATTER puts the values. vfp2py_convert_visitor.py:1738-1762 -/
inductive ScatterTo where
  | memvar | array | name (additive : Bool)
  deriving DecidableEq, Repr

/-- Commands with the clauses that make a difference.
vfp2py_convert_visitor.py:521-528, 1316-1333, 1341-1477, 1738-1776, 1887-2039 -/
inductive Cmd where
  | quit
  | wait
  | clear (args : Nat)
  | text (noshow : Bool)
  | scatter (fields : Fields) (memo blank : Bool) (to : ScatterTo)
  | gather (fields : Fields) (memo memvar : Bool)
  | doForm (name linked args noshow : Bool)
  | readEvents
  | read
  | reportForm
  | macroLine
  | onError | onShutdown | onEscape | onOther | onSelection
  | onKey
  | onPad | onBar
  | defineMenu (window bar line nomargin : Bool)
  | definePad
  | definePopup (shadow margin relative color : Bool)
  | defineBar (message : Bool)
  | activateMenu (nowait pad : Bool)
  | deactivateMenu | deactivatePopup
  | activatePopup | activateWindow | activateScreen
  | show_ | hide | modifyWindow | modifyFile
  | push | pop
  | list | saveTo | restoreFrom | unlock | compile | sort | copyToArray | zoom
  | suspend | resume | cancel
  deriving DecidableEq, Repr

/-- A keyword argument that is only given if the clause is there, vfp2py_convert_visitor.py:1738-1776 -/
def kw (b : Bool) (k : Name) : List Name := if b then [k] else []

/-- vfp2py_convert_visitor.py:1738-1776 -/
def fieldKws : Fields → List Name
  | .all => []
  | .list => ["fields"]
  | .like => ["type", "fields"]
  | .except_ => ["type", "fields"]

/-- The visitors: `visitProgramControl` 521-528, `visitLine` 191-206 (macros), `visitFuncDo` 1257-1275, `visitClearStmt`
1316-1333, `visitReadEvent` 1341-1343, `visitOnStmt` 1369-1390, `visitWaitCmd` 1459-1466, `visitDeactivate` 1468-1474,
`visitScatterExpr` 1738-1762, `visitGatherExpr` 1764-1776, `visitReport` 1788-1789, 1887-1891 and 1918-1940 (nothing),
`visitTextBlock` 1942-1952, menus and windows 1962-2045. -/
def emit : Cmd → Code
  | .quit => .call ⟨"quit", 0, []⟩
  | .wait => .call ⟨"wait", 1, ["to", "window", "nowait", "noclear", "timeout"]⟩
  | .clear n => .call ⟨"clear", 1 + n, []⟩
  | .text noshow => .call ⟨"text", 1, kw noshow "show"⟩
  | .scatter f memo blank to =>
    .call ⟨"scatter", 0, fieldKws f ++ kw memo "memo" ++ kw blank "blank" ++ (match to with
      | .memvar => []
      | .array => ["totype"]
      | .name additive => kw additive "additive" ++ ["totype"])⟩
  | .gather f memo memvar => .call ⟨"gather", 0, fieldKws f ++ kw memo "memo" ++ kw (!memvar) "val"⟩
  | .doForm name linked args noshow =>
    .call ⟨"do_form", 1, kw name "name" ++ kw (name && linked) "linked" ++ kw args "args" ++ kw noshow "noshow"⟩
  | .readEvents => .call ⟨"read_events", 0, []⟩
  | .read => .nothing
  | .reportForm => .call ⟨"report_form", 1, []⟩
  | .macroLine => .call ⟨"macro_eval", 1, []⟩
  | .onError => .setAttribute "error_func"
  | .onShutdown => .setAttribute "shutdown_func"
  | .onEscape => .setAttribute "escape_func"
  | .onOther | .onSelection => .nothing
  | .onKey => .setItem "on_key"
  | .onPad => .call ⟨"on_pad_bar", 3, []⟩
  | .onBar => .call ⟨"on_pad_bar", 3, []⟩
  | .defineMenu window bar line nomargin =>
    .call ⟨"define_menu", 1, kw window "window" ++ kw bar "bar" ++ kw (bar && line) "line" ++ kw nomargin "nomargin"⟩
  | .definePad => .call ⟨"define_pad", 3, ["message", "key", "color_scheme"]⟩
  | .definePopup shadow margin relative color =>
    .call ⟨"define_popup", 1, kw shadow "shadow" ++ kw margin "margin" ++ kw relative "relative" ++ kw color "color_scheme"⟩
  | .defineBar message => .call ⟨"define_bar", 3, kw message "message"⟩
  | .activateMenu nowait pad => .call ⟨"activate_menu", 1, kw nowait "nowait" ++ kw pad "pad"⟩
  | .deactivateMenu => .call ⟨"deactivate_menu", 1, []⟩
  | .deactivatePopup => .call ⟨"deactivate_popup", 1, []⟩
  | .activatePopup | .activateWindow | .activateScreen | .show_ | .hide | .modifyWindow | .modifyFile
  | .push | .pop | .list | .saveTo | .restoreFrom | .unlock | .compile | .sort | .copyToArray | .zoom
  | .suspend | .resume | .cancel => .nothing

end Model.Commands
