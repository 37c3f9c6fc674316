/-!
# POSIX paths as component lists (47 is `/`, 46 is `.`), without symbolic links
-/
namespace Spec

/-- The pieces between slashes. -/
def splitSlash : List Nat → List (List Nat)
  | [] => [[]]
  | x :: xs =>
    if x = 47 then [] :: splitSlash xs
    else
      match splitSlash xs with
      | [] => [[x]]
      | y :: ys => (x :: y) :: ys

/-- Walk one component from the directory `cur` (innermost component first). -/
def walk (cur : List (List Nat)) (c : List Nat) : List (List Nat) :=
  if c = [] ∨ c = [46] then cur
  else if c = [46, 46] then cur.tail
  else c :: cur

/-- The place a path denotes, seen from the working directory `cwd` (both lists have the
innermost component first). -/
def resolve (cwd : List (List Nat)) (path : List Nat) : List (List Nat) :=
  (splitSlash path).foldl walk (if path.head? = some 47 then [] else cwd)

end Spec
