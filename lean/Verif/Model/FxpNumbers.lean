import Verif.Model.FxpCode
/-!
# Numbers with decimals in compiled programs

`read_double`, `read_float` and `FXPNumber` (`/repo/vfp2py/fxp_read.py` 80-90, 129-135), which print the numbers with
decimals in the code of compiled programs.

Simplifications: an infinite value or one that is no number is `none` (Python prints `inf` and `nan`, FoxPro writes no such
constants); the division of `read_float` is exact, as it is in binary.
-/
namespace Model.FxpNumbers
open Model.Fxp (Rest DErr readSInt leDecode)

/-- The value `num / den`, with its sign: that of a floating point number. fxp_read.py:132, 135 -/
structure Value where
  neg : Bool
  num : Nat
  den : Nat
  deriving DecidableEq, Repr

/-- `struct.unpack('<d', ..)` of the eight bytes as one number: sign, 11 bits of exponent, 52 bits of fraction.
fxp_read.py:132 -/
def double (bits : Nat) : Option Value :=
  let neg := decide (2 ^ 63 ≤ bits)
  let e := bits / 2 ^ 52 % 2 ^ 11
  let m := bits % 2 ^ 52
  if e = 2047 then none
  else if e = 0 then some ⟨neg, m, 2 ^ 1074⟩
  else if e < 1075 then some ⟨neg, 2 ^ 52 + m, 2 ^ (1075 - e)⟩
  else some ⟨neg, (2 ^ 52 + m) * 2 ^ (e - 1075), 1⟩

/-- The nearest whole number to `q / d`, the even one of two: the rounding of Python's `f` format. fxp_read.py:90 -/
def nearest (q d : Nat) : Nat :=
  if 2 * (q % d) < d then q / d
  else if d < 2 * (q % d) then q / d + 1
  else if q / d % 2 = 0 then q / d else q / d + 1

/-- A whole number with at least `w` digits. fxp_read.py:90 -/
def digits (w n : Nat) : List Char :=
  List.replicate (w - (Nat.toDigits 10 n).length) '0' ++ Nat.toDigits 10 n

/-- `'{:.Df}'` of a number without its sign: `n` are its digits with `D` decimals. fxp_read.py:86 -/
def body (dec n : Nat) : List Char :=
  digits 1 (n / 10 ^ dec) ++ (if dec = 0 then [] else '.' :: digits dec (n % 10 ^ dec))

/-- `FXPNumber(x, digits, dec).__repr__()`: `'{:0W.Df}'` puts zeros between the sign and the digits. fxp_read.py:80-90 -/
def text (v : Value) (width dec : Nat) : List Char :=
  let b := body dec (nearest (v.num * 10 ^ dec) v.den)
  let sign := if v.neg then ['-'] else []
  sign ++ List.replicate (width - dec - (sign.length + b.length)) '0' ++ b

/-- `read_double`: the text, or an exception. fxp_read.py:129-132 -/
def readDouble (r : Rest) : Except DErr (Option (List Char) × Rest) :=
  match r with
  | w :: dec :: r =>
    if r.length < 8 then .error .structError
    else .ok ((double (leDecode (r.take 8))).map (fun v => text v (w - 1) dec), r.drop 8)
  | _ => .error .indexError

/-- `read_float`: a number of 65536ths. fxp_read.py:134-135 -/
def readFloat (r : Rest) : Except DErr (List Char × Rest) :=
  match readSInt 4 r with
  | .error e => .error e
  | .ok (n, r) => .ok (text ⟨decide (n < 0), n.natAbs, 65536⟩ 10 4, r)

end Model.FxpNumbers
