import Verif.Model.Preproc
/-!
# What preprocessing means

A program is a flat list of source lines; a machine reads them from top to
bottom with a stack of the open conditionals and the history of the directives
that took effect.  Nothing here uses the parse tree, the dictionaries or the
include cache of the model; the token and environment types are shared.
-/
namespace PreprocSpec
open Preproc (Str Tok Env Err Kind Line)

/-- A source line. -/
inductive Dir
  | text (toks : List Tok)
  | define (name : Str) (toks : List Tok)
  | undefine (name : Str)
  | incl (file : Str)
  | ifExpr (cond : List Tok)
  | ifDef (name : Str)
  | els
  | endif

/-- A directive that took effect. -/
inductive Event
  | def_ (name : Str) (body : List Tok)
  | undef (name : Str)

/-- The current replacement of a name: its most recent `#DEFINE` unless an
`#UNDEFINE` came after it (most recent event first). -/
def current : List Event → Str → Option (List Tok)
  | [], _ => none
  | .def_ n b :: h, x => if n = x then some b else current h x
  | .undef n :: h, x => if n = x then none else current h x

/-- A comment at the end of a line becomes a comment line of its own. -/
def commentLine (t : Tok) : Tok := ⟨t.kind, ['*'] ++ t.text.drop 2 ++ ['\n']⟩

/-- A line with its constants replaced, comments first. -/
def expand (low : Str → Str) (cur : Str → Option (List Tok)) (toks : List Tok) : List Tok :=
  (toks.filter (fun t => t.kind == .comment && (cur (low t.text)).isNone)).map commentLine ++
  toks.flatMap (fun t =>
    match cur (low t.text) with
    | some b => b
    | none => if t.kind == .comment then [] else [t])

/-- `b` is what `toks` (the rest of a `#DEFINE` line) stands for: no white space
in front, no white space or comment at the end. -/
def IsBody (toks b : List Tok) : Prop :=
  ∃ pre post, toks = pre ++ b ++ post ∧
    (∀ t ∈ pre, t.kind = .ws) ∧ (∀ t ∈ post, t.kind = .ws ∨ t.kind = .comment) ∧
    (∀ t, b.head? = some t → t.kind ≠ .ws) ∧
    (∀ t, b.getLast? = some t → t.kind = .other)

/-- An open conditional: is the current branch kept, and would the `#ELSE`
branch be kept? -/
structure Frame where
  keep : Bool
  keepElse : Bool

/-- Lines are kept when every open conditional keeps them. -/
def live (st : List Frame) : Bool := st.all Frame.keep

/- The lines of a parse tree in source order. -/
mutual
def flat : Line → List Dir
  | .text toks => [.text toks]
  | .define n toks => [.define n toks]
  | .undefine n => [.undefine n]
  | .incl f => [.incl f]
  | .junk => []
  | .ifExpr c body els => .ifExpr c :: (flats body ++ flatOpt els ++ [.endif])
  | .ifDef n body els => .ifDef n :: (flats body ++ flatOpt els ++ [.endif])
def flatOpt : Option (List Line) → List Dir
  | none => []
  | some ls => .els :: flats ls
def flats : List Line → List Dir
  | [] => []
  | l :: ls => flat l ++ flats ls
end

/-- `Runs E ds st h h' out`: reading the lines `ds` with the open conditionals
`st` and the history `h` produces `out` and the history `h'`.  `#INCLUDE` of a
file is replaced by the lines of the file. -/
inductive Runs (E : Env) : List Dir → List Frame → List Event → List Event → List Tok → Prop
  | nil {h} : Runs E [] [] h h []
  | skip {d ds st h h' o} (hl : live st = false)
      (hd : (∃ t, d = .text t) ∨ (∃ n t, d = .define n t) ∨ (∃ n, d = .undefine n) ∨ ∃ f, d = .incl f)
      (hr : Runs E ds st h h' o) : Runs E (d :: ds) st h h' o
  | text {t ds st h h' o} (hl : live st = true) (hr : Runs E ds st h h' o) :
      Runs E (.text t :: ds) st h h' (expand E.low (current h) t ++ o)
  | define {n t b ds st h h' o} (hl : live st = true) (hb : IsBody t b)
      (hr : Runs E ds st (.def_ (E.low n) b :: h) h' o) : Runs E (.define n t :: ds) st h h' o
  | undefine {n ds st h h' o} (hl : live st = true)
      (hr : Runs E ds st (.undef (E.low n) :: h) h' o) : Runs E (.undefine n :: ds) st h h' o
  | incl {f ls ds st h h' o} (hl : live st = true) (hf : E.file f = some ls)
      (hr : Runs E (flats ls ++ ds) st h h' o) : Runs E (.incl f :: ds) st h h' o
  | ifLive {c b ds st h h' o} (hl : live st = true)
      (hc : E.evalIf (((expand E.low (current h) c).map Tok.text).flatten) = .ok b)
      (hr : Runs E ds (⟨b, !b⟩ :: st) h h' o) : Runs E (.ifExpr c :: ds) st h h' o
  | ifdefLive {n ds st h h' o} (hl : live st = true)
      (hr : Runs E ds (⟨(current h (E.low n)).isSome, !(current h (E.low n)).isSome⟩ :: st) h h' o) :
      Runs E (.ifDef n :: ds) st h h' o
  | ifDead {d ds st h h' o} (hl : live st = false) (hd : (∃ c, d = .ifExpr c) ∨ ∃ n, d = .ifDef n)
      (hr : Runs E ds (⟨false, false⟩ :: st) h h' o) : Runs E (d :: ds) st h h' o
  | els {fr ds st h h' o} (hr : Runs E ds (⟨fr.keepElse, false⟩ :: st) h h' o) :
      Runs E (.els :: ds) (fr :: st) h h' o
  | endif {fr ds st h h' o} (hr : Runs E ds st h h' o) : Runs E (.endif :: ds) (fr :: st) h h' o

/-! ## Headers preprocessed on their own -/

open Preproc (Mem)
open Py

/- Preprocessing without a cache: every `#INCLUDE` preprocesses the header
afresh (`inc`).  Definitions and token replacement as in the model. -/
mutual
def freshLine (E : Env) (inc : Str → Except Err (Mem × List Tok)) :
    Line → Mem → Except Err (Mem × List Tok)
  | .text toks, m => .ok (m, Preproc.replaceTokens E.low m toks)
  | .define n toks, m => .ok (Dict.set m (E.low n) (Preproc.trimDefine toks), [])
  | .undefine n, m =>
    if Dict.has m (E.low n) then .ok (Dict.del m (E.low n), []) else .error .keyError
  | .junk, _ => .error .typeError
  | .incl f, m => (inc f).map (fun r => (Dict.update m r.1, r.2))
  | .ifExpr c body els, m =>
    match E.evalIf (Preproc.joinText (Preproc.replaceTokens E.low m c)) with
    | .error e => .error e
    | .ok true => freshLines E inc body m
    | .ok false => freshElse E inc els m
  | .ifDef n body els, m =>
    if Dict.has m (E.low n) then freshLines E inc body m else freshElse E inc els m
def freshElse (E : Env) (inc : Str → Except Err (Mem × List Tok)) :
    Option (List Line) → Mem → Except Err (Mem × List Tok)
  | some ls, m => freshLines E inc ls m
  | none, m => .ok (m, [])
def freshLines (E : Env) (inc : Str → Except Err (Mem × List Tok)) :
    List Line → Mem → Except Err (Mem × List Tok)
  | [], m => .ok (m, [])
  | l :: ls, m =>
    match freshLine E inc l m with
    | .error e => .error e
    | .ok (m1, t1) =>
      match freshLines E inc ls m1 with
      | .error e => .error e
      | .ok (m2, t2) => .ok (m2, t1 ++ t2)
end

/-- A header on its own, headers nested at most `n` deep. -/
def freshFile (E : Env) : Nat → Str → Except Err (Mem × List Tok)
  | 0, _ => .error .recursion
  | n + 1, f =>
    match E.file f with
    | none => .error .ioError
    | some ls => freshLines E (freshFile E n) ls []

/-- A program, headers nested at most `n` deep. -/
def freshCode (E : Env) (n : Nat) (ls : List Line) : Except Err (Mem × List Tok) :=
  freshLines E (freshFile E n) ls []

/-! ## Self-contained headers -/

/- `out` tells which names the including files have defined so far, `m` is what
the file itself has defined.  A line is self-contained when no name it looks up
is defined only by the including files. -/
mutual
def selfLine (E : Env) (inc : Str → Except Err (Mem × List Tok)) (selfInc : (Str → Bool) → Str → Prop)
    (out : Str → Bool) : Line → Mem → Prop
  | .text toks, m => ∀ t ∈ toks, Dict.has m (E.low t.text) = false → out (E.low t.text) = false
  | .define _ _, _ => True
  | .undefine n, _ => out (E.low n) = false
  | .junk, _ => True
  | .incl f, m => selfInc (fun x => out x || Dict.has m x) f
  | .ifExpr c body els, m =>
    (∀ t ∈ c, Dict.has m (E.low t.text) = false → out (E.low t.text) = false) ∧
    (E.evalIf (Preproc.joinText (Preproc.replaceTokens E.low m c)) = .ok true →
      selfLines E inc selfInc out body m) ∧
    (E.evalIf (Preproc.joinText (Preproc.replaceTokens E.low m c)) = .ok false →
      selfElse E inc selfInc out els m)
  | .ifDef n body els, m =>
    (Dict.has m (E.low n) = false → out (E.low n) = false) ∧
    (Dict.has m (E.low n) = true → selfLines E inc selfInc out body m) ∧
    (Dict.has m (E.low n) = false → selfElse E inc selfInc out els m)
def selfElse (E : Env) (inc : Str → Except Err (Mem × List Tok)) (selfInc : (Str → Bool) → Str → Prop)
    (out : Str → Bool) : Option (List Line) → Mem → Prop
  | some ls, m => selfLines E inc selfInc out ls m
  | none, _ => True
def selfLines (E : Env) (inc : Str → Except Err (Mem × List Tok)) (selfInc : (Str → Bool) → Str → Prop)
    (out : Str → Bool) : List Line → Mem → Prop
  | [], _ => True
  | l :: ls, m => selfLine E inc selfInc out l m ∧
      ∀ m1 t1, freshLine E inc l m = .ok (m1, t1) → selfLines E inc selfInc out ls m1
end

/-- Header `f`, included where the including files have defined `out`, is
self-contained, and so are the headers it includes. -/
def selfFile (E : Env) : Nat → (Str → Bool) → Str → Prop
  | 0, _, _ => True
  | n + 1, out, f => ∀ ls, E.file f = some ls →
      selfLines E (freshFile E n) (selfFile E n) out ls []

/-- Every header the program includes is self-contained where it is included. -/
def SelfContained (E : Env) (n : Nat) (ls : List Line) : Prop :=
  selfLines E (freshFile E n) (selfFile E n) (fun _ => false) ls []

end PreprocSpec

namespace PreprocSpec
open Preproc (Str Tok Env Err Kind Line)

/-! ## Constants built from constants, string literals, moved comments -/

/-- The directives of a list of `#DEFINE`/`#UNDEFINE` lines, most recent first. -/
inductive HistoryOf (E : Env) : List Line → List Event → Prop
  | nil : HistoryOf E [] []
  | define {ls h n t b} : HistoryOf E ls h → IsBody t b →
      HistoryOf E (ls ++ [.define n t]) (.def_ (E.low n) b :: h)
  | undefine {ls h n} : HistoryOf E ls h → HistoryOf E (ls ++ [.undefine n]) (.undef (E.low n) :: h)

/-- Full replacement: constants in the replacement of a constant are replaced
too, until none is left. -/
inductive Full (low : Str → Str) (cur : Str → Option (List Tok)) : List Tok → List Tok → Prop
  | nil : Full low cur [] []
  | keep {t ts o} : cur (low t.text) = none → Full low cur ts o → Full low cur (t :: ts) (t :: o)
  | repl {t ts b ob o} : cur (low t.text) = some b → Full low cur b ob → Full low cur ts o →
      Full low cur (t :: ts) (ob ++ o)

/-- Replacement that leaves the inside of string literals alone: `q` is the
delimiter of the literal being read, if any. -/
def expandOutside (low : Str → Str) (cur : Str → Option (List Tok)) : Option Str → List Tok → List Tok
  | _, [] => []
  | none, t :: ts =>
    if t.text = ['\''] ∨ t.text = ['"'] then t :: expandOutside low cur (some t.text) ts
    else
      match cur (low t.text) with
      | some b => b ++ expandOutside low cur none ts
      | none => t :: expandOutside low cur none ts
  | some q, t :: ts => t :: expandOutside low cur (if t.text = q then none else some q) ts

/-- The tokens strictly inside string literals. -/
def inside : Option Str → List Tok → List Tok
  | _, [] => []
  | none, t :: ts => if t.text = ['\''] ∨ t.text = ['"'] then inside (some t.text) ts else inside none ts
  | some q, t :: ts => if t.text = q then inside none ts else t :: inside (some q) ts

/-- The physical lines of a text. -/
def physical : Str → List Str
  | [] => [[]]
  | c :: cs =>
    if c = '\n' then [] :: physical cs
    else match physical cs with
      | [] => [[c]]
      | l :: ls => (c :: l) :: ls

/-- A line ending with `;` and blanks continues on the next one. -/
def continues (l : Str) : Bool :=
  (l.reverse.dropWhile (fun c => c = ' ' || c = '\t' || c = '\r')).head? = some ';'

/-- The statement lines of a text. -/
def joinContinued : List Str → List Str
  | [] => []
  | l :: ls =>
    if continues l then
      match joinContinued ls with
      | [] => [l]
      | x :: xs => (l ++ '\n' :: x) :: xs
    else l :: joinContinued ls

def statementLines (s : Str) : List Str := joinContinued (physical s)

/-- The line is taken for a macro substitution: its first `&` is followed by a
name (here: a letter or underscore). -/
def isMacro (l : Str) : Bool :=
  match l.dropWhile (fun c => c ≠ '&') with
  | _ :: c :: _ => c.isAlpha || c = '_'
  | _ => false

/-- The line is a comment statement. -/
def isCommentLine (l : Str) : Bool := l.head? = some '*' && !isMacro l

end PreprocSpec
