import Verif.Model.Blocks
/-!
# Meaning of structured statements

FoxPro side: what a statement of the source does.  Python side: how the lines
of generated code are read (indentation, compound statements) and executed.
Both use the same `World`: what a simple statement, an expression, an assignment
to a loop variable and the binding of a caught error do to the state.  FoxPro's
FOR assigns the values of the loop in turn; the value that it leaves in the
variable after the loop is not described here (C70).
-/
namespace BlocksSpec
open Blocks

/-- How a statement ends. -/
inductive Out (E : Type)
  | normal
  | exit
  | loop
  | ret
  | err (e : E)
deriving DecidableEq

/-- The meaning of the parts that are not structured. -/
structure World (S C V X E σ : Type) where
  simple : S → σ → Out E × σ
  cond : C → σ → Except E Bool × σ
  bind : V → E → σ → σ
  /-- Value of an integer expression. -/
  num : C → σ → Except E Int × σ
  setNum : V → Int → σ → σ
  /-- Elements of an array or collection. -/
  items : C → σ → Except E (List X) × σ
  setItem : V → X → σ → σ
  /-- The error Python raises for `range` with step 0. -/
  zeroStep : E

variable {S C V X E σ : Type}

/-- Result of a run: `none` when the step bound of a loop is exceeded. -/
abbrev Res (E σ : Type) := Option (Out E × σ)

/-- Do `k` when the run ended normally. -/
def andThen (r : Res E σ) (k : σ → Res E σ) : Res E σ :=
  match r with
  | some (.normal, s) => k s
  | r => r

/-- A loop with at most `n` iterations. -/
def repeatLoop (cond : σ → Except E Bool × σ) (body : σ → Res E σ) : Nat → σ → Res E σ
  | 0, _ => none
  | n + 1, s =>
    match cond s with
    | (.error e, s1) => some (.err e, s1)
    | (.ok false, s1) => some (.normal, s1)
    | (.ok true, s1) =>
      match body s1 with
      | none => none
      | some (.normal, s2) => repeatLoop cond body n s2
      | some (.loop, s2) => repeatLoop cond body n s2
      | some (.exit, s2) => some (.normal, s2)
      | some (.ret, s2) => some (.ret, s2)
      | some (.err e, s2) => some (.err e, s2)

/-- Run `f` after `r`, however `r` ended; an abnormal end of `f` wins. -/
def always (r : Res E σ) (f : σ → Res E σ) : Res E σ :=
  match r with
  | none => none
  | some (o, s) =>
    match f s with
    | none => none
    | some (.normal, s1) => some (o, s1)
    | some (o1, s1) => some (o1, s1)

/-- Branch on a condition. -/
def branch (r : Except E Bool × σ) (t f : σ → Res E σ) : Res E σ :=
  match r with
  | (.error e, s) => some (.err e, s)
  | (.ok true, s) => t s
  | (.ok false, s) => f s

/-- Continue with the value of an expression. -/
def value {α : Type} (r : Except E α × σ) (k : α → σ → Res E σ) : Res E σ :=
  match r with
  | (.error e, s) => some (.err e, s)
  | (.ok a, s) => k a s

/-- Run the body once for each element. -/
def eachLoop {α : Type} (assign : α → σ → σ) (body : σ → Res E σ) : List α → σ → Res E σ
  | [], s => some (.normal, s)
  | x :: xs, s =>
    match body (assign x s) with
    | none => none
    | some (.normal, s2) => eachLoop assign body xs s2
    | some (.loop, s2) => eachLoop assign body xs s2
    | some (.exit, s2) => some (.normal, s2)
    | some (.ret, s2) => some (.ret, s2)
    | some (.err e, s2) => some (.err e, s2)

/-! ## FoxPro -/

/-- The values `v, v + step, ..` that do not pass `stop`, at most `f` of them. -/
def upTo (step stop : Int) : Nat → Int → List Int
  | 0, _ => []
  | f + 1, v => if v ≤ stop then v :: upTo step stop f (v + step) else []

/-- The same downwards. -/
def downTo (step stop : Int) : Nat → Int → List Int
  | 0, _ => []
  | f + 1, v => if stop ≤ v then v :: downTo step stop f (v + step) else []

/-- The values of the variable in `FOR v = start TO stop STEP step` for a
step other than 0. -/
def forValues (start stop step : Int) : List Int :=
  if 0 < step then upTo step stop (stop - start + 1).toNat start
  else downTo step stop (start - stop + 1).toNat start

def foxSimple (W : World S C V X E σ) : List S → σ → Res E σ
  | [], s => some (.normal, s)
  | x :: xs, s => andThen (some (W.simple x s)) (foxSimple W xs)

mutual
/-- Meaning of a FoxPro statement, at most `n` iterations per loop. -/
def fox (W : World S C V X E σ) (n : Nat) : Stmt S C V → σ → Res E σ
  | .simple out, s => foxSimple W out s
  | .noise _, s => some (.normal, s)
  | .ifS c body els, s => branch (W.cond c s) (foxs W n body) (foxOpt W n els)
  | .caseS _ cases otherwise, s => foxCases W n (foxOpt W n otherwise) cases s
  | .whileS c body, s => repeatLoop (W.cond c) (foxs W n body) n s
  | .forS v start stop step body, s =>
    value (W.num start s) fun a s1 =>
      value (W.num stop s1) fun b s2 =>
        value (match step with
            | none => (.ok 1, s2)
            | some c => W.num c s2) fun k s3 =>
          eachLoop (W.setNum v) (foxs W n body) (forValues a b k) s3
  | .eachS v c body, s => value (W.items c s) fun xs s1 => eachLoop (W.setItem v) (foxs W n body) xs s1
  | .withS body, s => foxs W n body s
  | .tryS body catch_ fin, s =>
    always
      (match foxs W n body s with
       | some (.err e, s1) => foxCatch W n catch_ e s1
       | r => r)
      (foxOpt W n fin)
/-- An error reaches a CATCH: it is stored, the WHEN condition decides. -/
def foxCatch (W : World S C V X E σ) (n : Nat) :
    Option (Option V × Option C × List (Stmt S C V)) → E → σ → Res E σ
  | none, e, s => some (.err e, s)
  | some (to, when_, lines), e, s =>
    let s1 := match to with
      | none => s
      | some v => W.bind v e s
    match when_ with
    | none => foxs W n lines s1
    | some w => branch (W.cond w s1) (foxs W n lines) (fun s2 => some (.err e, s2))
/-- The first case whose condition holds. -/
def foxCases (W : World S C V X E σ) (n : Nat) (otherwise : σ → Res E σ) :
    List (C × List (Stmt S C V)) → σ → Res E σ
  | [], s => otherwise s
  | (c, ls) :: rest, s => branch (W.cond c s) (foxs W n ls) (foxCases W n otherwise rest)
def foxOpt (W : World S C V X E σ) (n : Nat) : Option (List (Stmt S C V)) → σ → Res E σ
  | none, s => some (.normal, s)
  | some ls, s => foxs W n ls s
def foxs (W : World S C V X E σ) (n : Nat) : List (Stmt S C V) → σ → Res E σ
  | [], s => some (.normal, s)
  | x :: xs, s => andThen (fox W n x s) (foxs W n xs)
end

/-! ## What the generated code does with every program -/

/-- The values of the variable in the generated loop: counting down ends two values too early. -/
def generatedValues (start stop step : Int) : List Int :=
  forValues start (if 0 < step then stop else stop + 2) step

mutual
/-- As `fox`, but OTHERWISE without a CASE is skipped, FINALLY without CATCH is skipped after an error
(and whenever the TRY lines do not end normally), and FOR counts as `generatedValues`. -/
def actual (W : World S C V X E σ) (n : Nat) : Stmt S C V → σ → Res E σ
  | .simple out, s => foxSimple W out s
  | .noise _, s => some (.normal, s)
  | .ifS c body els, s => branch (W.cond c s) (actuals W n body) (actualOpt W n els)
  | .caseS _ cases otherwise, s =>
    if cases.isEmpty then some (.normal, s)
    else actualCases W n (actualOpt W n otherwise) cases s
  | .whileS c body, s => repeatLoop (W.cond c) (actuals W n body) n s
  | .forS v start stop step body, s =>
    value (W.num start s) fun a s1 =>
      value (W.num stop s1) fun b s2 =>
        value (match step with
            | none => (.ok 1, s2)
            | some c => W.num c s2) fun k s3 =>
          if k = 0 then some (.err W.zeroStep, s3)
          else eachLoop (W.setNum v) (actuals W n body) (generatedValues a b k) s3
  | .eachS v c body, s => value (W.items c s) fun xs s1 => eachLoop (W.setItem v) (actuals W n body) xs s1
  | .withS body, s => actuals W n body s
  | .tryS body catch_ fin, s =>
    if catch_.isNone then andThen (actuals W n body s) (actualOpt W n fin)
    else
      always
        (match actuals W n body s with
         | some (.err e, s1) => actualCatch W n catch_ e s1
         | r => r)
        (actualOpt W n fin)
def actualCatch (W : World S C V X E σ) (n : Nat) :
    Option (Option V × Option C × List (Stmt S C V)) → E → σ → Res E σ
  | none, e, s => some (.err e, s)
  | some (to, when_, lines), e, s =>
    let s1 := match to with
      | none => s
      | some v => W.bind v e s
    match when_ with
    | none => actuals W n lines s1
    | some w => branch (W.cond w s1) (actuals W n lines) (fun s2 => some (.err e, s2))
def actualCases (W : World S C V X E σ) (n : Nat) (otherwise : σ → Res E σ) :
    List (C × List (Stmt S C V)) → σ → Res E σ
  | [], s => otherwise s
  | (c, ls) :: rest, s => branch (W.cond c s) (actuals W n ls) (actualCases W n otherwise rest)
def actualOpt (W : World S C V X E σ) (n : Nat) : Option (List (Stmt S C V)) → σ → Res E σ
  | none, s => some (.normal, s)
  | some ls, s => actuals W n ls s
def actuals (W : World S C V X E σ) (n : Nat) : List (Stmt S C V) → σ → Res E σ
  | [], s => some (.normal, s)
  | x :: xs, s => andThen (actual W n x s) (actuals W n xs)
end

/-! ## The statements for which the generated code is right -/

mutual
/-- FINALLY only together with CATCH, OTHERWISE only together with a CASE, every
STEP positive. -/
def Regular (W : World S C V X E σ) : Stmt S C V → Prop
  | .simple _ => True
  | .noise _ => True
  | .ifS _ body els => Regulars W body ∧ RegularOpt W els
  | .caseS _ cases otherwise => (cases = [] → otherwise = none) ∧ RegularCases W cases ∧ RegularOpt W otherwise
  | .whileS _ body => Regulars W body
  | .forS _ _ _ step body =>
    (∀ c, step = some c → ∀ s k, (W.num c s).1 = .ok k → 0 < k) ∧ Regulars W body
  | .eachS _ _ body => Regulars W body
  | .withS body => Regulars W body
  | .tryS body catch_ fin =>
    (catch_ = none → fin = none) ∧ Regulars W body ∧ RegularCatch W catch_ ∧ RegularOpt W fin
def RegularCatch (W : World S C V X E σ) : Option (Option V × Option C × List (Stmt S C V)) → Prop
  | none => True
  | some (_, _, ls) => Regulars W ls
def RegularCases (W : World S C V X E σ) : List (C × List (Stmt S C V)) → Prop
  | [] => True
  | (_, ls) :: rest => Regulars W ls ∧ RegularCases W rest
def RegularOpt (W : World S C V X E σ) : Option (List (Stmt S C V)) → Prop
  | none => True
  | some ls => Regulars W ls
def Regulars (W : World S C V X E σ) : List (Stmt S C V) → Prop
  | [] => True
  | s :: ss => Regular W s ∧ Regulars W ss
end

/-! ## Python: reading the lines -/

/-- A line with the lines indented below it. -/
inductive Tree (S C V : Type)
  | node (l : PLine S C V) (below : List (Tree S C V))

def isNoise : PLine S C V → Bool
  | .comment => true
  | .blank => true
  | _ => false

/-- Read lines of depth `d` (fuel bounds the number of lines). -/
def readLevel : Nat → Nat → List (Nat × PLine S C V) → List (Tree S C V) × List (Nat × PLine S C V)
  | 0, _, ls => ([], ls)
  | _ + 1, _, [] => ([], [])
  | f + 1, d, (k, l) :: rest =>
    if k = d then
      let below := readLevel f (d + 1) rest
      let after := readLevel f d below.2
      (.node l below.1 :: after.1, after.2)
    else ([], (k, l) :: rest)

/-- Read the indentation of a text; empty lines and comments do not count.
`none` when the indentation is not consistent. -/
def readText (ls : List (Nat × PLine S C V)) : Option (List (Tree S C V)) :=
  let ls := ls.filter (fun p => !isNoise p.2)
  let r := readLevel ls.length 0 ls
  if r.2.isEmpty then some r.1 else none

/-! ## Python: compound statements -/

inductive PStmt (S C V : Type)
  | simple (s : S)
  | pass
  | raise
  | bindErr (v : V)
  | ifS (c : PCond C) (body els : List (PStmt S C V))
  | whileS (c : PCond C) (body : List (PStmt S C V))
  | forS (v : V) (it : PIter C) (body : List (PStmt S C V))
  | tryS (body handler : List (PStmt S C V)) (fin : Option (List (PStmt S C V)))

/-- A line that continues an `if` statement. -/
def isElse : PLine S C V → Bool
  | .elifL _ => true
  | .elseL => true
  | _ => false

def startsElse : List (Tree S C V) → Bool
  | .node l _ :: _ => isElse l
  | [] => false

def startsFinally : List (Tree S C V) → Bool
  | .node .finallyL _ :: _ => true
  | _ => false

mutual
/-- The statements a list of trees stands for, by Python's grammar: every
compound statement has a block with at least one statement, no other line has
one. -/
inductive Parses : List (Tree S C V) → List (PStmt S C V) → Prop
  | nil : Parses [] []
  | simple {s ts ps} : Parses ts ps → Parses (.node (.simple s) [] :: ts) (.simple s :: ps)
  | pass {ts ps} : Parses ts ps → Parses (.node .pass [] :: ts) (.pass :: ps)
  | raise {ts ps} : Parses ts ps → Parses (.node .raise [] :: ts) (.raise :: ps)
  | bindErr {v ts ps} : Parses ts ps → Parses (.node (.bindErr v) [] :: ts) (.bindErr v :: ps)
  | ifS {c b pb ts els rest ps} : b ≠ [] → Parses b pb → ParsesElse ts els rest → Parses rest ps →
      Parses (.node (.ifL c) b :: ts) (.ifS c pb els :: ps)
  | whileS {c b pb ts ps} : b ≠ [] → Parses b pb → startsElse ts = false → Parses ts ps →
      Parses (.node (.whileL c) b :: ts) (.whileS c pb :: ps)
  | forS {v it b pb ts ps} : b ≠ [] → Parses b pb → startsElse ts = false → Parses ts ps →
      Parses (.node (.forL v it) b :: ts) (.forS v it pb :: ps)
  | tryS {b pb h ph ts ps} : b ≠ [] → h ≠ [] → Parses b pb → Parses h ph → startsElse ts = false →
      startsFinally ts = false → Parses ts ps →
      Parses (.node .tryL b :: .node .exceptL h :: ts) (.tryS pb ph none :: ps)
  | tryFin {b pb h ph f pf ts ps} : b ≠ [] → h ≠ [] → f ≠ [] → Parses b pb → Parses h ph → Parses f pf →
      Parses ts ps →
      Parses (.node .tryL b :: .node .exceptL h :: .node .finallyL f :: ts) (.tryS pb ph (some pf) :: ps)
/-- The `elif`/`else` part behind an `if` block. -/
inductive ParsesElse : List (Tree S C V) → List (PStmt S C V) → List (Tree S C V) → Prop
  | none {ts} : startsElse ts = false → ParsesElse ts [] ts
  | els {b pb ts} : b ≠ [] → Parses b pb → ParsesElse (.node .elseL b :: ts) pb ts
  | elif {c b pb ts els rest} : b ≠ [] → Parses b pb → ParsesElse ts els rest →
      ParsesElse (.node (.elifL c) b :: ts) [.ifS c pb els] rest
end

/-- The statements Python reads in the generated text. -/
def Generated (prog : List (Stmt S C V)) (ps : List (PStmt S C V)) : Prop :=
  ∃ ts, readText (generate prog) = some ts ∧ Parses ts ps

mutual
/-- A statement without the comments and unconvertible statements in it. -/
def strip : Stmt S C V → Stmt S C V
  | .simple out => .simple out
  | .noise ls => .noise ls
  | .ifS c body els => .ifS c (strips body) (stripOpt els)
  | .caseS _ cases otherwise => .caseS [] (stripCases cases) (stripOpt otherwise)
  | .whileS c body => .whileS c (strips body)
  | .forS v a b k body => .forS v a b k (strips body)
  | .eachS v c body => .eachS v c (strips body)
  | .withS body => .withS (strips body)
  | .tryS body catch_ fin => .tryS (strips body) (stripCatch catch_) (stripOpt fin)
def stripCatch : Option (Option V × Option C × List (Stmt S C V)) → Option (Option V × Option C × List (Stmt S C V))
  | none => none
  | some (to, when_, ls) => some (to, when_, strips ls)
def stripCases : List (C × List (Stmt S C V)) → List (C × List (Stmt S C V))
  | [] => []
  | (c, ls) :: rest => (c, strips ls) :: stripCases rest
def stripOpt : Option (List (Stmt S C V)) → Option (List (Stmt S C V))
  | none => none
  | some ls => some (strips ls)
def strips : List (Stmt S C V) → List (Stmt S C V)
  | [] => []
  | .noise _ :: ss => strips ss
  | s :: ss => strip s :: strips ss
end

/-! ## Python: execution -/

/-- Value of a condition. -/
def pyCond (W : World S C V X E σ) : PCond C → σ → Except E Bool × σ
  | .expr c, s => W.cond c s
  | .tt, s => (.ok true, s)
  | .notE c, s =>
    match W.cond c s with
    | (.ok b, s1) => (.ok (!b), s1)
    | (.error e, s1) => (.error e, s1)

def pyInt (W : World S C V X E σ) (p : PInt C) (s : σ) : Except E Int × σ :=
  match W.num p.expr s with
  | (.ok k, s1) => (.ok (k + p.plus), s1)
  | (.error e, s1) => (.error e, s1)

/-- `range(start, stop, step)` for a step other than 0: the `i`th element is
`start + i * step`, as long as it is below `stop` (above, for a negative step). -/
def pyRange (start stop step : Int) : List Int :=
  if 0 < step then (List.range ((stop - start + step - 1) / step).toNat).map (fun i : Nat => start + i * step)
  else (List.range ((start - stop + -step - 1) / -step).toNat).map (fun i : Nat => start + i * step)

mutual
/-- Meaning of a Python statement; `cur` is the error being handled. -/
def py (W : World S C V X E σ) (n : Nat) (cur : Option E) : PStmt S C V → σ → Res E σ
  | .simple x, s => some (W.simple x s)
  | .pass, s => some (.normal, s)
  | .raise, s =>
    match cur with
    | some e => some (.err e, s)
    | none => none
  | .bindErr v, s =>
    match cur with
    | some e => some (.normal, W.bind v e s)
    | none => none
  | .ifS c body els, s => branch (pyCond W c s) (pys W n cur body) (pys W n cur els)
  | .whileS c body, s => repeatLoop (pyCond W c) (pys W n cur body) n s
  | .forS v it body, s =>
    match it with
    | .each c => value (W.items c s) fun xs s1 => eachLoop (W.setItem v) (pys W n cur body) xs s1
    | .range start stop step =>
      value (pyInt W start s) fun a s1 =>
        value (pyInt W stop s1) fun b s2 =>
          value (match step with
              | none => (.ok 1, s2)
              | some c => pyInt W c s2) fun k s3 =>
            if k = 0 then some (.err W.zeroStep, s3)
            else eachLoop (W.setNum v) (pys W n cur body) (pyRange a b k) s3
  | .tryS body handler fin, s =>
    always
      (match pys W n cur body s with
       | some (.err e, s1) => pys W n (some e) handler s1
       | r => r)
      (pyOpt W n cur fin)
def pyOpt (W : World S C V X E σ) (n : Nat) (cur : Option E) : Option (List (PStmt S C V)) → σ → Res E σ
  | none, s => some (.normal, s)
  | some ps, s => pys W n cur ps s
def pys (W : World S C V X E σ) (n : Nat) (cur : Option E) : List (PStmt S C V) → σ → Res E σ
  | [], s => some (.normal, s)
  | x :: xs, s => andThen (py W n cur x s) (pys W n cur xs)
end

end BlocksSpec
