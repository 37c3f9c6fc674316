import Verif.Spec.Crc
import Verif.Model.FxpHeader
/-! The table-free nibble computation of `checksum_calc` is the bitwise CRC. -/
namespace Model.Fxp
open Spec

theorem xor_split (k x y x' y' : Nat) (h : y < 2 ^ k) (h' : y' < 2 ^ k) :
    (x * 2 ^ k + y) ^^^ (x' * 2 ^ k + y') = (x ^^^ x') * 2 ^ k + (y ^^^ y') := by
  have hy : y ^^^ y' < 2 ^ k := Nat.xor_lt_two_pow h h'
  have e1 : ((x * 2 ^ k + y) ^^^ (x' * 2 ^ k + y')) / 2 ^ k = x ^^^ x' := by
    rw [Nat.xor_div_two_pow]
    rw [Nat.mul_comm x, Nat.mul_comm x', Nat.mul_add_div (Nat.two_pow_pos k),
      Nat.mul_add_div (Nat.two_pow_pos k), Nat.div_eq_of_lt h, Nat.div_eq_of_lt h']
    simp
  have e2 : ((x * 2 ^ k + y) ^^^ (x' * 2 ^ k + y')) % 2 ^ k = y ^^^ y' := by
    rw [Nat.xor_mod_two_pow]
    rw [Nat.mul_comm x, Nat.mul_comm x', Nat.mul_add_mod, Nat.mul_add_mod,
      Nat.mod_eq_of_lt h, Nat.mod_eq_of_lt h']
  have := Nat.div_add_mod ((x * 2 ^ k + y) ^^^ (x' * 2 ^ k + y')) (2 ^ k)
  rw [e1, e2] at this
  rw [← this, Nat.mul_comm]

theorem crcBit_xor (s t : Nat) : crcBit (s ^^^ t) = crcBit s ^^^ crcBit t := by
  unfold crcBit
  rw [Nat.testBit_xor, Nat.shiftLeft_xor_distrib]
  cases s.testBit 15 <;> cases t.testBit 15 <;> simp only [Bool.false_eq_true, Bool.xor_false,
    Bool.xor_true, Bool.not_true, Bool.not_false, if_true, if_false]
  · rw [Nat.xor_assoc]
  · rw [Nat.xor_assoc, Nat.xor_assoc]; congr 1; rw [Nat.xor_comm]
  · rw [Nat.xor_assoc, Nat.xor_comm (_ : Nat) (_ ^^^ 0x11021), Nat.xor_assoc]; simp

theorem crcBits_xor (n s t : Nat) : crcBits n (s ^^^ t) = crcBits n s ^^^ crcBits n t := by
  induction n generalizing s t with
  | zero => rfl
  | succ n ih => simp only [crcBits, crcBit_xor, ih]

theorem crcBits_low : ∀ l : Fin 256, crcBits 8 l.val = l.val <<< 8 := by decide +kernel

/-- The step on a state whose low byte is zero is the CRC of the high byte. -/
theorem ckStep_table : ∀ a b : Fin 16,
    ckPack (ckStep ⟨a.val, b.val, 0, 0⟩ 0) = crcBits 8 ((a.val * 16 + b.val) <<< 8) ∧
    (ckStep ⟨a.val, b.val, 0, 0⟩ 0).a < 16 ∧ (ckStep ⟨a.val, b.val, 0, 0⟩ 0).b < 16 ∧
    (ckStep ⟨a.val, b.val, 0, 0⟩ 0).c < 16 ∧ (ckStep ⟨a.val, b.val, 0, 0⟩ 0).d < 16 := by
  decide +kernel

/-- The four variables hold four bits each. -/
structure Nib (s : Ck) : Prop where
  a : s.a < 16
  b : s.b < 16
  c : s.c < 16
  d : s.d < 16

theorem xor_lt16 {x y : Nat} (hx : x < 16) (hy : y < 16) : x ^^^ y < 16 :=
  Nat.xor_lt_two_pow (n := 4) hx hy

theorem hi_eq {byte : Nat} (h : byte < 256) : (byte &&& 0xF0) >>> 4 = byte / 16 := by
  have := (by decide +kernel : ∀ b : Fin 256, (b.val &&& 0xF0) >>> 4 = b.val / 16) ⟨byte, h⟩
  exact this

theorem lo_eq {byte : Nat} (h : byte < 256) : (byte &&& 0x0F) >>> 0 = byte % 16 := by
  have := (by decide +kernel : ∀ b : Fin 256, (b.val &&& 0x0F) >>> 0 = b.val % 16) ⟨byte, h⟩
  exact this

theorem ckPack_eq (s : Ck) : ckPack s = s.a * 4096 + s.b * 256 + s.c * 16 + s.d := by
  simp [ckPack, Nat.shiftLeft_eq]

theorem ckPack_lt {s : Ck} (h : Nib s) : ckPack s < 65536 := by
  rw [ckPack_eq]; have := h.a; have := h.b; have := h.c; have := h.d; omega

theorem ckStep_split (s : Ck) (byte : Nat) :
    ckStep s byte =
      let t := ckStep ⟨s.a ^^^ ((byte &&& 0xF0) >>> 4), s.b ^^^ ((byte &&& 0x0F) >>> 0), 0, 0⟩ 0
      ⟨t.a ^^^ s.c, t.b ^^^ s.d, t.c, t.d⟩ := by
  simp only [ckStep, Nat.zero_and, Nat.zero_shiftRight, Nat.xor_zero, Nat.zero_xor]
  congr 1
  · rw [Nat.xor_assoc, Nat.xor_assoc (_ ^^^ _), Nat.xor_comm s.c]
    simp only [Nat.xor_assoc]
  · rw [Nat.xor_comm]

theorem ckStep_nib {s : Ck} (h : Nib s) {byte : Nat} (hb : byte < 256) : Nib (ckStep s byte) := by
  rw [ckStep_split, hi_eq hb, lo_eq hb]
  have h1 : s.a ^^^ (byte / 16) < 16 := xor_lt16 h.a (by omega)
  have h2 : s.b ^^^ (byte % 16) < 16 := xor_lt16 h.b (by omega)
  obtain ⟨_, t1, t2, t3, t4⟩ := ckStep_table ⟨_, h1⟩ ⟨_, h2⟩
  exact ⟨xor_lt16 t1 h.c, xor_lt16 t2 h.d, t3, t4⟩

theorem xor256 (x y x' y' : Nat) (h : y < 256) (h' : y' < 256) :
    (x * 256 + y) ^^^ (x' * 256 + y') = (x ^^^ x') * 256 + (y ^^^ y') := xor_split 8 x y x' y' h h'

theorem xor16 (x y x' y' : Nat) (h : y < 16) (h' : y' < 16) :
    (x * 16 + y) ^^^ (x' * 16 + y') = (x ^^^ x') * 16 + (y ^^^ y') := xor_split 4 x y x' y' h h'

theorem pack_eq (a b c d : Nat) :
    a * 4096 + b * 256 + c * 16 + d = (a * 16 + b) * 256 + (c * 16 + d) := by
  rw [Nat.add_mul, Nat.mul_assoc, Nat.add_assoc (_ + _)]

theorem pack_xor_low (a b c d u v : Nat) (hb : b < 16) (hc : c < 16) (hd : d < 16) (hv : v < 16) :
    (a ^^^ u) * 4096 + (b ^^^ v) * 256 + c * 16 + d =
      (a * 4096 + b * 256 + c * 16 + d) ^^^ ((u * 16 + v) * 256) := by
  have hcd : c * 16 + d < 256 := by omega
  have h := xor256 (a * 16 + b) (c * 16 + d) (u * 16 + v) 0 hcd (by decide)
  rw [xor16 a b u v hb hv, Nat.xor_zero, Nat.add_zero] at h
  rw [pack_eq, pack_eq, h]

theorem xor_low (x l : Nat) (hl : l < 256) : (x * 256) ^^^ l = x * 256 + l := by
  have := xor_split 8 x 0 0 l (by omega) (by omega)
  simpa using this

theorem pack_xor_high (a b c d byte : Nat) (hb : b < 16) (hc : c < 16) (hd : d < 16) :
    (a * 4096 + b * 256 + c * 16 + d) ^^^ (byte * 256) =
      (((a ^^^ (byte / 16)) * 16 + (b ^^^ (byte % 16))) * 256) ^^^ (c * 16 + d) := by
  have hcd : c * 16 + d < 256 := by omega
  have h := xor256 (a * 16 + b) (c * 16 + d) byte 0 hcd (by decide)
  have h2 := xor16 a b (byte / 16) (byte % 16) hb (by omega)
  have h3 : byte / 16 * 16 + byte % 16 = byte := by omega
  rw [h3] at h2
  rw [h2, Nat.xor_zero, Nat.add_zero] at h
  rw [pack_eq, h, xor_low _ _ hcd]

/-- One iteration of the loop is one byte of the CRC. -/
theorem ckPack_ckStep {s : Ck} (h : Nib s) {byte : Nat} (hb : byte < 256) :
    ckPack (ckStep s byte) = crcByte (ckPack s) byte := by
  have h1 : s.a ^^^ (byte / 16) < 16 := xor_lt16 h.a (by omega)
  have h2 : s.b ^^^ (byte % 16) < 16 := xor_lt16 h.b (by omega)
  obtain ⟨t0, t1, t2, t3, t4⟩ := ckStep_table ⟨_, h1⟩ ⟨_, h2⟩
  rw [ckStep_split, hi_eq hb, lo_eq hb]
  simp only at t0 t1 t2 t3 t4 ⊢
  generalize ckStep { a := s.a ^^^ byte / 16, b := s.b ^^^ byte % 16, c := 0, d := 0 } 0 = t at *
  have hcd : s.c * 16 + s.d < 256 := by have := h.c; have := h.d; omega
  have lhs := pack_xor_low t.a t.b t.c t.d s.c s.d t2 t3 t4 h.d
  have arg := pack_xor_high s.a s.b s.c s.d byte h.b h.c h.d
  have low := crcBits_low ⟨s.c * 16 + s.d, hcd⟩
  simp only [Nat.shiftLeft_eq, show (2 : Nat) ^ 8 = 256 from rfl] at low t0
  rw [ckPack_eq] at t0 ⊢
  rw [crcByte, ckPack_eq, Nat.shiftLeft_eq, show (2 : Nat) ^ 8 = 256 from rfl, arg, crcBits_xor, low, ← t0]
  exact lhs

theorem ckFold {bytes : List Nat} (hb : ∀ x ∈ bytes, x < 256) {s : Ck} (h : Nib s) :
    Nib (bytes.foldl ckStep s) ∧ ckPack (bytes.foldl ckStep s) = bytes.foldl crcByte (ckPack s) := by
  induction bytes generalizing s with
  | nil => exact ⟨h, rfl⟩
  | cons x xs ih =>
    have hx := hb x (by simp)
    have := ih (fun y hy => hb y (by simp [hy])) (ckStep_nib h hx)
    simp only [List.foldl_cons]
    rw [← ckPack_ckStep h hx]
    exact this

/-- After the first two bytes the register is zero. -/
theorem checksum_start (x y : Nat) :
    ckStep (ckStep ⟨(x &&& 0xF0) >>> 4, (x &&& 0x0F) >>> 0, (y &&& 0xF0) >>> 4, (y &&& 0x0F) >>> 0⟩ x) y
      = ⟨0, 0, 0, 0⟩ := by
  simp [ckStep]

theorem crcBit_lt {s : Nat} (h : s < 65536) : crcBit s < 65536 := by
  unfold crcBit
  have hb : s.testBit 15 = decide (32768 ≤ s) := by
    rw [Nat.testBit_eq_decide_div_mod_eq]
    by_cases hs : 32768 ≤ s
    · have : s / 2 ^ 15 % 2 = 1 := by omega
      simp [this, hs]
    · have : s / 2 ^ 15 % 2 = 0 := by omega
      simp [this, hs]
  rw [hb, Nat.shiftLeft_eq]
  by_cases hs : 32768 ≤ s
  · simp only [hs, decide_true, if_true]
    have e1 : s * 2 ^ 1 = 1 * 2 ^ 16 + (2 * s - 65536) := by omega
    have e2 : (0x11021 : Nat) = 1 * 2 ^ 16 + 0x1021 := by decide
    rw [e1, e2, xor_split 16 _ _ _ _ (by omega) (by omega)]
    have := Nat.xor_lt_two_pow (n := 16) (x := 2 * s - 65536) (y := 0x1021) (by omega) (by omega)
    simp
    omega
  · simp [hs]; omega

theorem crcBit_zero {s : Nat} (h : crcBit s = 0) : s = 0 := by
  unfold crcBit at h
  split at h
  · have h0 := congrArg (fun x => Nat.testBit x 0) h
    simp at h0
  · rw [Nat.shiftLeft_eq] at h; omega

theorem crcBits_lt (n : Nat) {s : Nat} (h : s < 65536) : crcBits n s < 65536 := by
  induction n generalizing s with
  | zero => exact h
  | succ n ih => exact ih (crcBit_lt h)

theorem crcBits_zero (n : Nat) {s : Nat} (h : crcBits n s = 0) : s = 0 := by
  induction n generalizing s with
  | zero => exact h
  | succ n ih => exact crcBit_zero (ih h)

theorem xor_eq_zero' {x y : Nat} (h : x ^^^ y = 0) : x = y := by
  have : (x ^^^ y) ^^^ y = 0 ^^^ y := by rw [h]
  rw [Nat.xor_assoc, Nat.xor_self, Nat.xor_zero, Nat.zero_xor] at this
  exact this

theorem crcBits_inj (n : Nat) {s t : Nat} (h : crcBits n s = crcBits n t) : s = t := by
  apply xor_eq_zero'
  apply crcBits_zero n
  rw [crcBits_xor, h, Nat.xor_self]

theorem xor_left_cancel' {x y z : Nat} (h : x ^^^ y = x ^^^ z) : y = z := by
  have : x ^^^ (x ^^^ y) = x ^^^ (x ^^^ z) := by rw [h]
  simpa [← Nat.xor_assoc] using this

theorem crcByte_inj_state {s t b : Nat} (h : crcByte s b = crcByte t b) : s = t := by
  have := crcBits_inj 8 h
  rw [Nat.xor_comm s, Nat.xor_comm t] at this
  exact xor_left_cancel' this

theorem crcByte_inj_byte {s b b' : Nat} (h : crcByte s b = crcByte s b') : b = b' := by
  have := xor_left_cancel' (crcBits_inj 8 h)
  rw [Nat.shiftLeft_eq, Nat.shiftLeft_eq] at this
  omega

theorem crcFold_inj_state (l : List Nat) {s t : Nat} (h : l.foldl crcByte s = l.foldl crcByte t) :
    s = t := by
  induction l generalizing s t with
  | nil => exact h
  | cons x xs ih => exact crcByte_inj_state (ih h)

end Model.Fxp
