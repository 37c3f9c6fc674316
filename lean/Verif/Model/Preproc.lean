import Verif.Py.Dict
/-!
# Model of the preprocessor (`vfp2py/vfp2py.py:31-121`)

The lexer and the ANTLR parse tree are input: a source file is the tree of its
lines as the grammar rules `preprocessorLines`/`preprocessorLine`
(`VisualFoxpro9.g4:4-23`) build it.  What is modelled is everything
`PreprocessVisitor` does with that tree.

Simplifications:
* `str.lower` and the evaluation of an `#IF` expression (`eval` of the
  converted text) are parameters of the model (`Env.low`, `Env.evalIf`), so the
  theorems hold for every such function;
* an exception ends the run and carries no state, as in the code, where none of
  the callers catches it;
* files do not change on disk while the converter runs, and `#INCLUDE` chains
  that contain themselves are cut off by a depth bound (`Err.recursion`, Python's
  `RecursionError`).
-/
namespace Preproc
open Py

/-- Text as a list of characters; a Python `str` at vfp2py.py:41-121. -/
abbrev Str := List Char

/-- Token kinds the preprocessor distinguishes (`ctx.parser.WS`,
`ctx.parser.COMMENT`, the rest). vfp2py.py:103-121 -/
inductive Kind
  | ws | comment | other
deriving DecidableEq, Repr

/-- vfp2py.py:47-121 -/
structure Tok where
  kind : Kind
  text : Str
deriving DecidableEq, Repr

/-- Raised in vfp2py.py:41-121 -/
inductive Err
  | keyError | typeError | ioError | evalError | recursion
deriving DecidableEq, Repr

/-- One `preprocessorLine` (`VisualFoxpro9.g4:12-23`).
* `text` carries the hidden tokens to the left of the line followed by the
  tokens of the line, i.e. `process_tokens` of `vfp2py.py:107`;
* `define` carries the tokens between the name and the end of the line,
  i.e. `tokens[namestart+1:stop]` of `vfp2py.py:60`;
* `ifExpr` carries the tokens of the condition in the same way as `text`;
* `incl` carries the file name after evaluation and lookup (`vfp2py.py:74-80`). -/
inductive Line
  | text (toks : List Tok)
  | define (name : Str) (toks : List Tok)
  | undefine (name : Str)
  | incl (file : Str)
  | junk
  | ifExpr (cond : List Tok) (body : List Line) (els : Option (List Line))
  | ifDef (name : Str) (body : List Line) (els : Option (List Line))

/-- What the run depends on: `low` is `str.lower`, `evalIf` the value of an
`#IF` expression text (`vfp2py.py:92`), `file` the parse tree of a header
(`none` when `open` or the parser fails). -/
structure Env where
  low : Str → Str
  evalIf : Str → Except Err Bool
  file : Str → Option (List Line)

/-- `self.memory`: defined name to replacement tokens. vfp2py.py:42-45 -/
abbrev Mem := Dict Str (List Tok)

instance : DecidableEq Mem := inferInstanceAs (DecidableEq (List (Str × List Tok)))

/-- `INCLUDE`: per header the finished visitor, of which `memory` and `tokens`
are used (`vfp2py.py:29,81-87`). -/
abbrev Cache := Dict Str (Mem × List Tok)

set_option synthInstance.maxSize 1000 in
instance : DecidableEq Cache := inferInstanceAs (DecidableEq (List (Str × (Mem × List Tok))))

/-- `visitPreprocessorDefine` (`vfp2py.py:61-64`): leading white space is
popped, trailing white space and comments are popped. -/
def trimDefine (toks : List Tok) : List Tok :=
  let front := toks.dropWhile (fun t => t.kind = .ws)
  (front.reverse.dropWhile (fun t => t.kind = .ws || t.kind = .comment)).reverse

/-- The text a moved comment gets (`vfp2py.py:114`): `'*' + text[2:] + '\n'`. -/
def starComment (t : Tok) : Tok := { t with text := '*' :: (t.text.drop 2 ++ ['\n']) }

/-- The loop of `replace_define_tokens` (`vfp2py.py:109-117`): the pair holds
`hidden_tokens` and `retval`. -/
def replaceLoop (low : Str → Str) (mem : Mem) : List Tok → List Tok × List Tok → List Tok × List Tok
  | [], acc => acc
  | t :: ts, (hidden, retval) =>
    match Dict.get mem (low t.text) with
    | some body => replaceLoop low mem ts (hidden, retval ++ body)
    | none =>
      if t.kind = .comment then replaceLoop low mem ts (hidden ++ [starComment t], retval)
      else replaceLoop low mem ts (hidden, retval ++ [t])

/-- `replace_define_tokens` (`vfp2py.py:103-118`). -/
def replaceTokens (low : Str → Str) (mem : Mem) (toks : List Tok) : List Tok :=
  let r := replaceLoop low mem toks ([], [])
  r.1 ++ r.2

/-- `''.join(x.text for x in ..)`. vfp2py.py:89-101 -/
def joinText (toks : List Tok) : Str := (toks.map Tok.text).flatten

mutual
/-- `visit` of one line (`vfp2py.py:56-101,120-121`).  The result is the cache,
the memory and the tokens the line contributes.  `inc` is what an `#INCLUDE`
of a file that is not cached does: `preprocess_file` on a fresh visitor.
A junk line returns `None`, which `lines += ..` rejects (`vfp2py.py:53`). -/
def visitLine (E : Env) (inc : Cache → Str → Except Err (Cache × Mem × List Tok)) :
    Line → Cache → Mem → Except Err (Cache × Mem × List Tok)
  | .text toks, c, mem => .ok (c, mem, replaceTokens E.low mem toks)
  | .define name toks, c, mem => .ok (c, Dict.set mem (E.low name) (trimDefine toks), [])
  | .undefine name, c, mem =>
    if Dict.has mem (E.low name) then .ok (c, Dict.del mem (E.low name), [])
    else .error .keyError
  | .junk, _, _ => .error .typeError
  | .incl f, c, mem =>
    match Dict.get c f with
    | some (m, toks) => .ok (c, Dict.update mem m, toks)
    | none =>
      match inc c f with
      | .error e => .error e
      | .ok (c', m, toks) => .ok (Dict.set c' f (m, toks), Dict.update mem m, toks)
  | .ifExpr cond body els, c, mem =>
    match E.evalIf (joinText (replaceTokens E.low mem cond)) with
    | .error e => .error e
    | .ok true => visitLines E inc body c mem
    | .ok false => visitElse E inc els c mem
  | .ifDef name body els, c, mem =>
    if Dict.has mem (E.low name) then visitLines E inc body c mem
    else visitElse E inc els c mem

/-- `elif ctx.ELSE(): .. else: return []` (`vfp2py.py:98-101`). -/
def visitElse (E : Env) (inc : Cache → Str → Except Err (Cache × Mem × List Tok)) :
    Option (List Line) → Cache → Mem → Except Err (Cache × Mem × List Tok)
  | some ls, c, mem => visitLines E inc ls c mem
  | none, c, mem => .ok (c, mem, [])

/-- `visitPreprocessorLines` (`vfp2py.py:50-54`). -/
def visitLines (E : Env) (inc : Cache → Str → Except Err (Cache × Mem × List Tok)) :
    List Line → Cache → Mem → Except Err (Cache × Mem × List Tok)
  | [], c, mem => .ok (c, mem, [])
  | l :: ls, c, mem =>
    match visitLine E inc l c mem with
    | .error e => .error e
    | .ok (c1, mem1, t1) =>
      match visitLines E inc ls c1 mem1 with
      | .error e => .error e
      | .ok (c2, mem2, t2) => .ok (c2, mem2, t1 ++ t2)
end

/-- `preprocess_file` (`vfp2py.py:200-202`, `189-198`): a new visitor with empty
memory over the tree of the file; `n` bounds the nesting of headers. -/
def preprocessFile (E : Env) : Nat → Cache → Str → Except Err (Cache × Mem × List Tok)
  | 0, _, _ => .error .recursion
  | n + 1, c, f =>
    match E.file f with
    | none => .error .ioError
    | some ls => visitLines E (preprocessFile E n) ls c []

/-- `preprocess_code(data).tokens` (`vfp2py.py:189-198`) for a main program. -/
def preprocessCode (E : Env) (n : Nat) (c : Cache) (ls : List Line) :
    Except Err (Cache × Mem × List Tok) :=
  visitLines E (preprocessFile E n) ls c []

/-- The program text handed to the second parser (`vfp2py.py:497`, the part
after `prepend_data`): the token texts joined, carriage returns removed. -/
def programText (toks : List Tok) : Str :=
  (toks.map (fun t => t.text.filter (fun ch => ch ≠ '\r'))).flatten

end Preproc
