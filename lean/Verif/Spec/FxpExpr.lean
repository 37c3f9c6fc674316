/-!
# Source expressions, their compiled postfix form and their fully parenthesised text

The compiled form is the one the FXP format uses: operands before operators, a parameter mark
(0x43) before the arguments of every call, object prefixes pushed right before the name they
qualify.
-/
namespace Spec.FxpExpr

inductive BinOp where
  | contains | mul | pow | add | sub | and | or | div | lt | le | ne | eq | gt | ge | exact
  deriving DecidableEq, Repr

def BinOp.code : BinOp → Nat
  | .contains => 0x01 | .mul => 0x04 | .pow => 0x05 | .add => 0x06 | .sub => 0x08 | .and => 0x09
  | .or => 0x0B | .div => 0x0C | .lt => 0x0D | .le => 0x0E | .ne => 0x0F | .eq => 0x10
  | .gt => 0x11 | .ge => 0x12 | .exact => 0x14

def BinOp.text : BinOp → String
  | .contains => "$" | .mul => "*" | .pow => "^" | .add => "+" | .sub => "-" | .and => "AND"
  | .or => "OR" | .div => "/" | .lt => "<" | .le => "<=" | .ne => "!=" | .eq => "="
  | .gt => ">" | .ge => ">=" | .exact => "=="

mutual
inductive Expr where
  | tru | fls | null
  /-- a byte, with the display width stored in the file -/
  | int8 (digits n : Nat)
  /-- a two byte number, possibly negative -/
  | int16 (digits : Nat) (n : Int)
  /-- a four byte number, possibly negative -/
  | int32 (digits : Nat) (n : Int)
  /-- a date, a datetime or a number with decimals: the code in the file, the bytes behind it, and its text -/
  | lit (code : Nat) (bytes : List Nat) (text : String)
  /-- a quoted string -/
  | dstr (bytes : List Nat)
  | sstr (bytes : List Nat)
  /-- `a.b.name` -/
  | ref (p : Prefix) (i : Nat)
  | not (e : Expr)
  /-- explicit parentheses in the source -/
  | paren (e : Expr)
  | bin (op : BinOp) (a b : Expr)
  /-- `AND` or `OR` with a mark that leads past the second operand -/
  | short (isOr : Bool) (jump : Nat) (a b : Expr)
  /-- a built-in function with the bytes of its token -/
  | fn (token : List Nat) (name : String) (args : Args)
  /-- `a.b.name(args)` -/
  | udf (p : Prefix) (i : Nat) (args : Args)
inductive Args where
  | nil
  | cons (e : Expr) (as : Args)
/-- What stands before the last dot of a name. -/
inductive Prefix where
  | none
  /-- `p.name.` -/
  | name (p : Prefix) (i : Nat)
  /-- `p.name(args).` -/
  | call (p : Prefix) (i : Nat) (args : Args)
end

def le16 (n : Nat) : List Nat := [n % 256, n / 256]

/-- `k` bytes of a number in two's complement, least significant first (`%` and `/` round down). -/
def twos : Nat → Int → List Nat
  | 0, _ => []
  | k + 1, n => (n % 256).toNat :: twos k (n / 256)

mutual
def Expr.compile : Expr → List Nat
  | .tru => [0x61]
  | .fls => [0x2D]
  | .null => [0xE4]
  | .int8 d n => [0xF8, d, n]
  | .int16 d n => 0xF9 :: d :: twos 2 n
  | .int32 d n => 0xE9 :: d :: twos 4 n
  | .lit code b _ => code :: b
  | .dstr b => 0xD9 :: (le16 b.length ++ b)
  | .sstr b => 0xFB :: (le16 b.length ++ b)
  | .ref p i => p.compile ++ 0xF7 :: le16 i
  | .not e => e.compile ++ [0x0A]
  | .paren e => e.compile ++ [0xCC]
  | .bin op a b => a.compile ++ (b.compile ++ [op.code])
  | .short isOr jump a b =>
    a.compile ++ ((if isOr then 0xF1 else 0xF0) :: (le16 jump ++ (b.compile ++ [if isOr then BinOp.or.code else BinOp.and.code])))
  | .fn token _ as => 0x43 :: (as.compile ++ token)
  | .udf p i as => 0x43 :: (as.compile ++ (p.compile ++ 0xF6 :: le16 i))
def Args.compile : Args → List Nat
  | .nil => []
  | .cons e as => e.compile ++ as.compile
def Prefix.compile : Prefix → List Nat
  | .none => []
  | .name p i => p.compile ++ 0xE3 :: le16 i
  | .call p i as => 0x43 :: (as.compile ++ (p.compile ++ 0xE5 :: le16 i))
end

def nameText (names : List String) (i : Nat) : String := names.getD i ""

def zeros (k : Nat) : String := String.ofList (List.replicate k '0')

/-- A number with zeros in front, at least `d` characters wide. -/
def padded (d : Nat) : Int → String
  | .ofNat m => zeros (d - (toString m).length) ++ toString m
  | .negSucc m => "-" ++ zeros (d - 1 - (toString (m + 1)).length) ++ toString (m + 1)

mutual
def Expr.text (names : List String) : Expr → String
  | .tru => ".T."
  | .fls => ".F."
  | .null => ".NULL."
  | .int8 d n => padded d n
  | .int16 d n => padded d n
  | .int32 d n => padded d n
  | .lit _ _ text => text
  | .dstr b => "\"" ++ String.ofList (b.map Char.ofNat) ++ "\""
  | .sstr b => "'" ++ String.ofList (b.map Char.ofNat) ++ "'"
  | .ref p i => p.text names ++ nameText names i
  | .not e => "(NOT " ++ e.text names ++ ")"
  | .paren e => "( " ++ e.text names ++ ")"
  | .bin op a b => "(" ++ a.text names ++ (" " ++ op.text ++ " ") ++ b.text names ++ ")"
  | .short isOr _ a b => "(" ++ a.text names ++ (if isOr then " OR " else " AND ") ++ b.text names ++ ")"
  | .fn _ f as => f ++ "(" ++ ", ".intercalate (as.texts names) ++ ")"
  | .udf p i as =>
    p.text names ++ nameText names i ++ "(" ++ ", ".intercalate (as.texts names) ++ ")"
def Args.texts (names : List String) : Args → List String
  | .nil => []
  | .cons e as => e.text names :: as.texts names
def Prefix.text (names : List String) : Prefix → String
  | .none => ""
  | .name p i => p.text names ++ nameText names i ++ "."
  | .call p i as =>
    p.text names ++ nameText names i ++ "(" ++ ", ".intercalate (as.texts names) ++ ")" ++ "."
end

mutual
/-- Names exist, lengths and numbers fit their fields, function tokens name the function
(`fn` is the token table), and dates and numbers with decimals have the text that `lit` gives for their bytes. -/
def Expr.Ok (fn : List Nat → Option String) (lit : Nat → List Nat → Option String) (names : List String) : Expr → Prop
  | .tru => True
  | .fls => True
  | .null => True
  | .int8 _ n => n < 256
  | .int16 _ n => -32768 ≤ n ∧ n < 32768
  | .int32 _ n => -2147483648 ≤ n ∧ n < 2147483648
  | .lit code b text => (code, b.length) ∈ [(0xE6, 8), (0xEE, 8), (0xE7, 4), (0xFA, 10)] ∧ lit code b = some text
  | .dstr b => b.length < 65536
  | .sstr b => b.length < 65536
  | .ref p i => p.Ok fn lit names ∧ i < names.length ∧ i < 65536
  | .not e => e.Ok fn lit names
  | .paren e => e.Ok fn lit names
  | .bin _ a b => a.Ok fn lit names ∧ b.Ok fn lit names
  | .short _ jump a b => jump < 65536 ∧ a.Ok fn lit names ∧ b.Ok fn lit names
  | .fn token f as => fn token = some f ∧ as.Ok fn lit names
  | .udf p i as => p.Ok fn lit names ∧ as.Ok fn lit names ∧ i < names.length ∧ i < 65536
def Args.Ok (fn : List Nat → Option String) (lit : Nat → List Nat → Option String) (names : List String) : Args → Prop
  | .nil => True
  | .cons e as => e.Ok fn lit names ∧ as.Ok fn lit names
def Prefix.Ok (fn : List Nat → Option String) (lit : Nat → List Nat → Option String) (names : List String) : Prefix → Prop
  | .none => True
  | .name p i => p.Ok fn lit names ∧ i < names.length ∧ i < 65536
  | .call p i as => p.Ok fn lit names ∧ as.Ok fn lit names ∧ i < names.length ∧ i < 65536
end

end Spec.FxpExpr
