/-!
# Line records and code blocks of a compiled program, independent of the reader
-/
namespace Spec.FxpLines

def hexDigit (k : Nat) : Char := "0123456789abcdef".toList.getD k '?'

/-- Two digits per byte, separated by blanks. -/
def hexDump : List Nat → List Char
  | [] => []
  | [b] => [hexDigit (b / 16), hexDigit (b % 16)]
  | b :: bs => hexDigit (b / 16) :: hexDigit (b % 16) :: ' ' :: hexDump bs

def le2 (n : Nat) : List Nat := [n % 256, n / 256]
def le4 (n : Nat) : List Nat := [n % 256, n / 256 % 256, n / 65536 % 256, n / 16777216]

/-- A line record: its length (including the two bytes of the length itself), then its bytes. -/
def record (payload : List Nat) : List Nat := le2 (payload.length + 2) ++ payload

/-- The code area of a sequence of lines. -/
def area (lines : List (List Nat)) : List Nat := lines.flatMap record

/-- A name table: the number of names, then each as length and bytes. -/
def nameTable (names : List (List Nat)) : List Nat :=
  le2 names.length ++ names.flatMap (fun n => le2 n.length ++ n)

/-- A code block: its length in two bytes, or zero and its length in four, the lines, the names. -/
def block (lines names : List (List Nat)) : List Nat :=
  (if 0 < (area lines).length ∧ (area lines).length < 65536 then le2 (area lines).length
    else [0, 0] ++ le4 (area lines).length) ++ area lines ++ nameTable names

end Spec.FxpLines
