/-!
# What the FoxPro string functions are meant to compute

Stated on character lists, by describing the result, without the functions of the run-time library.
-/
namespace Spec.Strings

abbrev Str := List Char

/-- CHRTRAN on one character: what it becomes. -/
def translate (from_ to : Str) (c : Char) : Str :=
  match from_.idxOf? c with
  | none => [c]
  | some k => (to[k]?).toList

/-- `old` occurs in `s` at offset `k`. -/
def OccursAt (old s : Str) (k : Nat) : Prop := ∃ t, s.drop k = old ++ t

/-- The pieces of `s` between the non-overlapping occurrences of `old`, found from the left. -/
inductive Split (old : Str) : Str → List Str → Prop
  | last {s} (h : ∀ k, ¬ OccursAt old s k) : Split old s [s]
  | step {a rest ps} (h : ∀ k, k < a.length → ¬ OccursAt old (a ++ old ++ rest) k)
      (hr : Split old rest ps) : Split old (a ++ old ++ rest) (a :: ps)

/-- Put the pieces together again; separator number `i` (counted from `from_`) is `new` when
`sel i`, else `old`. -/
def joinSel (old new : Str) (sel : Nat → Bool) : Nat → List Str → Str
  | _, [] => []
  | _, [p] => p
  | i, p :: q :: ps => p ++ (if sel i then new else old) ++ joinSel old new sel (i + 1) (q :: ps)

/-- Occurrences number `first` to `first + count - 1`; `none` is all from `first` on. -/
def chosen (first : Nat) (count : Option Nat) (i : Nat) : Bool :=
  decide (first ≤ i) && match count with
    | none => true
    | some c => decide (i < first + c)

/-- The words of a text: maximal non-empty runs of characters that are not delimiters. -/
inductive Words (delim : Char → Bool) : Str → List Str → Prop
  | none {s} (h : ∀ c ∈ s, delim c = true) : Words delim s []
  | word {pre w rest ws} (hpre : ∀ c ∈ pre, delim c = true) (hw : w ≠ [])
      (hnd : ∀ c ∈ w, delim c = false) (hend : ∀ c, rest.head? = some c → delim c = true)
      (hr : Words delim rest ws) : Words delim (pre ++ w ++ rest) (w :: ws)

/-- The pieces of `s` enclosed in `b` and `e`, found from the left, resuming after each `e`. -/
inductive Between (b e : Str) : Str → List Str → Prop
  | done {s} (h : ¬ ∃ x m rest, s = x ++ b ++ m ++ e ++ rest) : Between b e s []
  | step {x m rest l} (hx : ∀ k, k < x.length → ¬ OccursAt b (x ++ b ++ m ++ e ++ rest) k)
      (hm : ∀ k, k < m.length → ¬ OccursAt e (m ++ e ++ rest) k) (hr : Between b e rest l) :
      Between b e (x ++ b ++ m ++ e ++ rest) (m :: l)

/-- Wildcard matching of a whole string: `*` any run of characters, `?` exactly one. -/
inductive Wild : Str → Str → Prop
  | nil : Wild [] []
  | star {p s t} (h : Wild p t) : Wild ('*' :: p) (s ++ t)
  | one {p s} (c : Char) (h : Wild p s) : Wild ('?' :: p) (c :: s)
  | lit {p s} (c : Char) (h1 : c ≠ '*') (h2 : c ≠ '?') (h : Wild p s) : Wild (c :: p) (c :: s)

/-- Characters of a pattern that have a meaning of their own in Python's regular expressions but not in FoxPro's patterns (`.` is
escaped by the code). -/
def patternSpecial : List Char := ['(', ')', '[', ']', '{', '}', '+', '|', '^', '$', '\\']

end Spec.Strings
