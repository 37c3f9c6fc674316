/-!
# ASSERT

`visitAssert`, vfp2py_convert_visitor.py:1912-1916, and SET ASSERTS, vfp2py_convert_visitor.py:1791-1885.

Simplifications: of the other statements only IF is looked into, the rest changes the state of the program or raises
an error; a condition has a logical value and does not change the state.
-/
namespace Model.Assert

variable {σ : Type}

/-- The statements of a program from one on, VisualFoxpro9.g4:226, 264. A condition or message may raise an error. -/
inductive Prog (σ : Type) where
  | stop
  | step (f : σ → Except String σ) (rest : Prog σ)
  /-- SET ASSERTS ON or OFF -/
  | setAsserts (on : Bool) (rest : Prog σ)
  /-- ASSERT condition [MESSAGE message] -/
  | assert (cond : σ → Except String Bool) (message : Option (σ → Except String String)) (rest : Prog σ)
  | ifThen (cond : σ → Except String Bool) (yes no : Prog σ) (rest : Prog σ)

/-- How the Python code ends: vfp2py_convert_visitor.py:1912-1916 -/
inductive End (σ : Type) where
  | done (s : σ)
  /-- Another error. -/
  | error (e : String) (s : σ)
  /-- `AssertionError`, with its argument if it has one. -/
  | assertion (message : Option String) (s : σ)
  deriving DecidableEq

/-- The Python code. `visitSetCmd` has no case for SET ASSERTS, so the statement becomes a comment (1882-1883; 192-201);
`assert` evaluates the condition, and the message if it is false. vfp2py_convert_visitor.py:1912-1916 -/
def run : Prog σ → σ → End σ
  | .stop, s => .done s
  | .step f rest, s =>
    match f s with
    | .ok s' => run rest s'
    | .error e => .error e s
  | .setAsserts _ rest, s => run rest s
  | .assert cond message rest, s =>
    match cond s with
    | .error e => .error e s
    | .ok true => run rest s
    | .ok false =>
      match message with
      | none => .assertion none s
      | some m =>
        match m s with
        | .ok t => .assertion (some t) s
        | .error e => .error e s
  | .ifThen cond yes no rest, s =>
    match cond s with
    | .error e => .error e s
    | .ok b =>
      match (if b then run yes s else run no s) with
      | .done s' => run rest s'
      | e => e

end Model.Assert
