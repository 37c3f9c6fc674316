/-!
# Errors, CATCH and the object that CATCH TO receives

What the visitors write for ERROR, THROW, TRY .. CATCH TO and calls, and how Python runs it: an exception
with its text and its traceback, and `vfpfunc.Exception.from_pyexception`.

Simplifications: calls are written with the body of the procedure that is called, so a program is a tree;
statements that raise nothing do nothing here (their effects are in `Model.Program`); CATCH WHEN and
FINALLY are in `Model.Blocks`; `stacklevel` and `linecontents` of the object are left out.
-/
namespace Model.Errors

/-- Text as a list of characters; a Python `str` at vfpfunc.py:850-872. -/
abbrev Str := List Char

/-- The values given to ERROR and THROW. vfp2py_convert_visitor.py:1392-1394, 1476-1477 -/
inductive Val where
  | num (n : Int)
  | text (s : Str)
  deriving DecidableEq, Repr

/-- `str(value)`. vfpfunc.py:1189-1190 -/
def str : Val → Str
  | .num n => (toString n).toList
  | .text s => s

/-- Statements of generated code, with the line in the Python file. vfp2py_convert_visitor.py:497-519, 1392-1394, 1476-1477 -/
inductive Line where
  /-- a line that raises nothing -/
  | other (line : Nat)
  /-- `raise Exception(v)` -/
  | raise (line : Nat) (v : Val)
  /-- `raise` -/
  | reraise (line : Nat)
  /-- a line in which the library or Python raises an exception with this text -/
  | fault (line : Nat) (text : Str)
  /-- a line with `vfpfunc.message()` -/
  | message (line : Nat)
  /-- `func(..)`, with the body of the function -/
  | call (line : Nat) (func : Str) (body : List Line)
  /-- `try:` .. `except Exception as err:`, `S.x = vfpfunc.Exception.from_pyexception(err)`, .. -/
  | tryL (body handler : List Line)

/-- An entry of a traceback. vfpfunc.py:859-872 -/
structure Entry where
  file : Str
  func : Str
  line : Nat
  deriving DecidableEq, Repr

/-- An exception: `str(exc)` and `exc.__traceback__` from the frame in which it is seen inwards. vfpfunc.py:859-872 -/
structure Exc where
  text : Str
  trace : List Entry
  deriving DecidableEq, Repr

/-- `vfpfunc.Exception`, vfpfunc.py:850-857. -/
structure Object where
  message : Str
  lineno : Nat
  errorno : Nat
  procedure : Str
  deriving DecidableEq, Repr

/-- `Exception.from_pyexception`, vfpfunc.py:859-871.  The traceback of an exception that is caught is
never empty. -/
def fromPy (e : Exc) : Object :=
  match e.trace with
  | [] => ⟨e.text, 0, 0, []⟩
  | t :: _ => ⟨e.text, t.line, 0, t.file ++ ['.'] ++ t.func⟩

/-- The frame of the decorator around a procedure (`retval = fn()`, vfpfunc.py:1753). -/
def scoper : Entry := ⟨"vfpfunc".toList, "scoper".toList, 1753⟩

/-- `raise` without an exception being handled. Python on the code of vfp2py_convert_visitor.py:1476-1477 -/
def noActive : Str := "No active exception to reraise".toList
/-- `exc_obj.message`, vfpfunc.py:1278: exceptions have no such attribute. -/
def noMessage : Str := "'Exception' object has no attribute 'message'".toList

mutual
/-- Run a line in a function of a file while `active` is the exception being handled.  The result: the
objects assigned by CATCH TO in turn, and the exception that leaves. Python on the code of vfp2py_convert_visitor.py:497-519 -/
def run (file func : Str) (active : Option Exc) : Line → List Object × Option Exc
  | .other _ => ([], none)
  | .raise l v => ([], some ⟨str v, [⟨file, func, l⟩]⟩)
  | .reraise l => ([], some (active.getD ⟨noActive, [⟨file, func, l⟩]⟩))
  | .fault l t => ([], some ⟨t, [⟨file, func, l⟩]⟩)
  | .message l => ([], some ⟨noMessage, [⟨file, func, l⟩]⟩)
  | .call l g body =>
    let r := runs file g active body
    (r.1, r.2.map fun e => { e with trace := ⟨file, func, l⟩ :: scoper :: e.trace })
  | .tryL body handler =>
    let r := runs file func active body
    match r.2 with
    | none => (r.1, none)
    | some e =>
      let h := runs file func (some e) handler
      (r.1 ++ fromPy e :: h.1, h.2)
/-- Lines one after the other until an exception. Python on the code of vfp2py_convert_visitor.py:219-225 -/
def runs (file func : Str) (active : Option Exc) : List Line → List Object × Option Exc
  | [] => ([], none)
  | l :: ls =>
    let r := run file func active l
    match r.2 with
    | some e => (r.1, some e)
    | none =>
      let rest := runs file func active ls
      (r.1 ++ rest.1, rest.2)
end

/-! ## Conversion -/

/-- FoxPro statements, each with an identity; a faulty statement has the number of its error and the
text of the exception that its conversion raises. vfp2py_convert_visitor.py:497-519, 1392-1394, 1476-1477 -/
inductive Stmt where
  | other (at_ : Nat)
  | error (at_ : Nat) (v : Val)
  | throw (at_ : Nat) (v : Val)
  | rethrow (at_ : Nat)
  | fault (at_ : Nat) (number : Nat) (text : Str)
  | message (at_ : Nat)
  | call (at_ : Nat) (name : Str) (body : List Stmt)
  | tryS (body handler : List Stmt)

mutual
/-- `visitRaiseError`, `visitThrowError` (vfp2py_convert_visitor.py:1392-1394, 1476-1477), `visitTryStmt`
(497-519), for given lines and names of functions in the Python file. -/
def convert (line : Nat → Nat) (func : Str → Str) : Stmt → Line
  | .other a => .other (line a)
  | .error a v => .raise (line a) v
  | .throw a v => .raise (line a) v
  | .rethrow a => .reraise (line a)
  | .fault a _ t => .fault (line a) t
  | .message a => .message (line a)
  | .call a p body => .call (line a) (func p) (converts line func body)
  | .tryS body handler => .tryL (converts line func body) (converts line func handler)
/-- vfp2py_convert_visitor.py:219-225 -/
def converts (line : Nat → Nat) (func : Str → Str) : List Stmt → List Line
  | [] => []
  | s :: ss => convert line func s :: converts line func ss
end

end Model.Errors
