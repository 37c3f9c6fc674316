/-!
# CRC-16 with polynomial x^16 + x^12 + x^5 + 1 (0x1021), bit by bit, start value 0
-/
namespace Spec

/-- Shift the register left by one bit; if a one falls out, subtract the polynomial. -/
def crcBit (s : Nat) : Nat :=
  if s.testBit 15 then (s <<< 1) ^^^ 0x11021 else s <<< 1

def crcBits : Nat → Nat → Nat
  | 0, s => s
  | n + 1, s => crcBits n (crcBit s)

/-- One byte: into the high half of the register, then eight shifts. -/
def crcByte (s byte : Nat) : Nat := crcBits 8 (s ^^^ (byte <<< 8))

def crc16 (bytes : List Nat) : Nat := bytes.foldl crcByte 0

end Spec
