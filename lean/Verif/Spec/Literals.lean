/-!
# Literals

What Python reads from the text of a literal, and what FoxPro literals mean.
-/
namespace Spec.Literals

abbrev Str := List Char

/-! ## Digits -/

/-- Value of a hexadecimal digit. -/
def hexVal (c : Char) : Option Nat :=
  if '0' ≤ c ∧ c ≤ '9' then some (c.toNat - 48)
  else if 'a' ≤ c ∧ c ≤ 'f' then some (c.toNat - 87)
  else if 'A' ≤ c ∧ c ≤ 'F' then some (c.toNat - 55)
  else none

def isHex (c : Char) : Bool := (hexVal c).isSome
def isDigit (c : Char) : Bool := decide ('0' ≤ c ∧ c ≤ '9')

/-- The number that a sequence of digits spells. -/
def number (base : Nat) (ds : Str) : Nat := ds.foldl (fun n c => n * base + (hexVal c).getD 0) 0

/-! ## Python string literals -/

/-- A character given by hexadecimal digits. -/
def charOf (ds : List Char) : Option Char :=
  if ds.all isHex && decide ((number 16 ds).isValidChar) then some (Char.ofNat (number 16 ds)) else none

/-- The rest of a string literal behind its opening quote `q`: the characters it
denotes and the text behind the closing quote. Escape sequences other than these do
not occur in generated text and are not given a meaning. -/
def literal (q : Char) : Str → Option (Str × Str)
  | '\\' :: 'n' :: r => (literal q r).map fun p => ('\n' :: p.1, p.2)
  | '\\' :: 't' :: r => (literal q r).map fun p => ('\t' :: p.1, p.2)
  | '\\' :: 'r' :: r => (literal q r).map fun p => ('\r' :: p.1, p.2)
  | '\\' :: '\\' :: r => (literal q r).map fun p => ('\\' :: p.1, p.2)
  | '\\' :: '\'' :: r => (literal q r).map fun p => ('\'' :: p.1, p.2)
  | '\\' :: '"' :: r => (literal q r).map fun p => ('"' :: p.1, p.2)
  | '\\' :: 'x' :: a :: b :: r =>
    (charOf [a, b]).bind fun c => (literal q r).map fun p => (c :: p.1, p.2)
  | '\\' :: 'u' :: a :: b :: c :: d :: r =>
    (charOf [a, b, c, d]).bind fun x => (literal q r).map fun p => (x :: p.1, p.2)
  | '\\' :: 'U' :: a :: b :: c :: d :: e :: f :: g :: h :: r =>
    (charOf [a, b, c, d, e, f, g, h]).bind fun x => (literal q r).map fun p => (x :: p.1, p.2)
  | '\\' :: _ => none
  | '\n' :: _ => none
  | '\r' :: _ => none
  | c :: r => if c = q then some ([], r) else (literal q r).map fun p => (c :: p.1, p.2)
  | [] => none

/-- A string literal at the beginning of the text. Triple quotes begin another kind of
literal, which is not considered. -/
def readString : Str → Option (Str × Str)
  | '\'' :: '\'' :: '\'' :: _ => none
  | '"' :: '"' :: '"' :: _ => none
  | '\'' :: r => literal '\'' r
  | '"' :: r => literal '"' r
  | _ => none

/-! ## Numbers -/

/-- The number `mantissa * 10 ^ exponent`. -/
structure Dec where
  mantissa : Nat
  exponent : Int
deriving DecidableEq

/-- An unsigned decimal number without exponent: digits, possibly with a point. -/
inductive Fixed : Str → Dec → Prop
  | int {ds} : ds ≠ [] → ds.all isDigit = true → Fixed ds ⟨number 10 ds, 0⟩
  | frac {a b} : a.all isDigit = true → b.all isDigit = true → a ++ b ≠ [] →
      Fixed (a ++ '.' :: b) ⟨number 10 (a ++ b), -(b.length : Int)⟩

/-- The sign of an exponent. -/
inductive Sign : Str → Int → Prop
  | none : Sign [] 1
  | plus : Sign ['+'] 1
  | minus : Sign ['-'] (-1)

/-- FoxPro number literals: the digits of an exponent and of a hexadecimal number may
be missing. -/
inductive FoxNum : Str → Dec → Prop
  | fixed {t d} : Fixed t d → FoxNum t d
  | exp {t d e s g ds} : Fixed t d → e = 'e' ∨ e = 'E' → Sign s g → ds.all isDigit = true →
      FoxNum (t ++ e :: (s ++ ds)) ⟨d.mantissa, d.exponent + g * number 10 ds⟩
  | hex {x hs} : x = 'x' ∨ x = 'X' → hs.all isHex = true → FoxNum ('0' :: x :: hs) ⟨number 16 hs, 0⟩

/-- Python number literals with an exponent or hexadecimal. -/
inductive PyNum : Str → Dec → Prop
  | exp {t d s g ds} : Fixed t d → Sign s g → ds ≠ [] → ds.all isDigit = true →
      PyNum (t ++ 'e' :: (s ++ ds)) ⟨d.mantissa, d.exponent + g * number 10 ds⟩
  | hex {hs} : hs ≠ [] → hs.all isHex = true → PyNum ('0' :: 'x' :: hs) ⟨number 16 hs, 0⟩

/-! ## Time of day -/

/-- The hour of a 12-hour clock reading on a 24-hour clock. -/
def hour24 (h : Nat) (pm : Bool) : Nat := h % 12 + (if pm then 12 else 0)

end Spec.Literals
