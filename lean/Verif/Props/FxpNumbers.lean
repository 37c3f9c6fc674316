import Verif.Model.FxpNumbers
/-!
# C150: numbers in the listing of a compiled program
-/
namespace Props
open Model.FxpNumbers
open Model.Fxp (Rest)

namespace FxpNumbersSpec

/-- A constant: digits, or digits, a point and digits; its digits without the point, and how many are behind the point. -/
def unsigned (s : List Char) : Option (Nat × Nat) :=
  let whole := s.takeWhile (fun c => !decide (c = '.'))
  let dec := (s.dropWhile (fun c => !decide (c = '.'))).drop 1
  if whole ≠ [] ∧ (whole ++ dec).all Char.isDigit = true then some (Nat.ofDigitChars 10 (whole ++ dec) 0, dec.length) else none

/-- What a text of a number means: the sign, the digits and how many of them are decimals. -/
def reads : List Char → Option (Bool × Nat × Nat)
  | '-' :: s => (unsigned s).map fun p => (true, p)
  | s => (unsigned s).map fun p => (false, p)

/-- `n / 10 ^ d` is the same number as `num / den`. -/
def Same (n d num den : Nat) : Prop := n * den = num * 10 ^ d

/-- `n / 10 ^ d` is as near to `num / den` as a number with `d` decimals can be: at most half a unit of the last decimal
away. -/
def Near (n d num den : Nat) : Prop := 2 * (n * den) ≤ 2 * (num * 10 ^ d) + den ∧ 2 * (num * 10 ^ d) ≤ 2 * (n * den) + den

/-- The floating point number `num / den` stands for the constant `n / 10 ^ d`: it differs from it by at most one part in
`2 ^ 53`, as the nearest floating point number does. -/
def StandsFor (num den n d : Nat) : Prop :=
  2 ^ 53 * (num * 10 ^ d) ≤ (2 ^ 53 + 1) * (n * den) ∧ (2 ^ 53 - 1) * (n * den) ≤ 2 ^ 53 * (num * 10 ^ d)

/-- The number that bytes stand for, the first byte being the lowest one. -/
def little : List Nat → Nat
  | [] => 0
  | b :: bs => b + 256 * little bs

/-- The same with a sign, in two's complement. -/
def signed (bs : List Nat) : Int :=
  if 2 * little bs < 256 ^ bs.length then (little bs : Int) else (little bs : Int) - 256 ^ bs.length

/-- Eight bytes hold the floating point number with a sign, an exponent and a fraction (IEEE 754). -/
def Holds (bs : List Nat) (neg : Bool) (e m : Nat) : Prop :=
  bs.length = 8 ∧ e < 2047 ∧ m < 2 ^ 52 ∧ little bs = (if neg then 2 ^ 63 else 0) + e * 2 ^ 52 + m

/-- The value of that number is `significand e m / 2 ^ 1075`. -/
def significand (e m : Nat) : Nat := if e = 0 then 2 * m else (2 ^ 52 + m) * 2 ^ e

end FxpNumbersSpec
open FxpNumbersSpec

namespace FxpNumbersAux

theorem digits_isDigit (w n : Nat) : (digits w n).all Char.isDigit = true := by
  simp only [digits, List.all_append, Bool.and_eq_true, List.all_eq_true]
  refine ⟨fun c hc => ?_, fun c hc => Nat.isDigit_of_mem_toDigits (by decide) (by decide) hc⟩
  rw [(List.mem_replicate.1 hc).2]; decide

theorem zeros (k : Nat) (s : List Char) : Nat.ofDigitChars 10 (List.replicate k '0' ++ s) 0 = Nat.ofDigitChars 10 s 0 := by
  induction k with
  | zero => simp
  | succ k ih => rw [List.replicate_succ, List.cons_append, Nat.ofDigitChars_cons]; simpa using ih

theorem digits_value (w n : Nat) : Nat.ofDigitChars 10 (digits w n) 0 = n := by
  rw [digits, zeros, Nat.ofDigitChars_ten_toDigits]

theorem append_value (s t : List Char) :
    Nat.ofDigitChars 10 (s ++ t) 0 = Nat.ofDigitChars 10 s 0 * 10 ^ t.length + Nat.ofDigitChars 10 t 0 := by
  rw [Nat.ofDigitChars_append, Nat.ofDigitChars_eq_ofDigitChars_zero, Nat.mul_comm]

theorem digits_length {w n : Nat} (h : n < 10 ^ w) (hw : w ≠ 0) : (digits w n).length = w := by
  have := (Nat.length_toDigits_le_iff (b := 10) (n := n) (by decide) (Nat.pos_of_ne_zero hw)).2 h
  simp [digits]; omega

theorem digits_ne (w n : Nat) : digits w n ≠ [] := by
  have := Nat.toDigits_ne_nil (n := n) (b := 10)
  simp [digits, this]

theorem isDigit_ne {c : Char} (h : c.isDigit = true) : c ≠ '.' ∧ c ≠ '-' :=
  ⟨fun e => by rw [e] at h; exact absurd h (by decide), fun e => by rw [e] at h; exact absurd h (by decide)⟩

theorem take_digits {s : List Char} (h : s.all Char.isDigit = true) (t : List Char) :
    (s ++ '.' :: t).takeWhile (fun c => !decide (c = '.')) = s ∧ (s ++ '.' :: t).dropWhile (fun c => !decide (c = '.')) = '.' :: t := by
  induction s with
  | nil => simp
  | cons c s ih =>
    simp only [List.all_cons, Bool.and_eq_true] at h
    have := (isDigit_ne h.1).1
    have ih := ih h.2
    simp only [List.cons_append, List.takeWhile_cons, List.dropWhile_cons, this, decide_false, Bool.not_false, if_true, ih, and_self]

theorem take_all {s : List Char} (h : s.all Char.isDigit = true) :
    s.takeWhile (fun c => !decide (c = '.')) = s ∧ s.dropWhile (fun c => !decide (c = '.')) = [] := by
  induction s with
  | nil => simp
  | cons c s ih =>
    simp only [List.all_cons, Bool.and_eq_true] at h
    have := (isDigit_ne h.1).1
    have ih := ih h.2
    simp only [List.takeWhile_cons, List.dropWhile_cons, this, decide_false, Bool.not_false, if_true, ih, and_self]

theorem unsigned_dec {s t : List Char} (hs : s ≠ []) (h : s.all Char.isDigit = true) (h' : t.all Char.isDigit = true) :
    unsigned (s ++ '.' :: t) = some (Nat.ofDigitChars 10 (s ++ t) 0, t.length) := by
  simp only [unsigned, take_digits h t, List.drop_one, List.tail_cons, List.all_append, h, h', Bool.and_self, hs, ne_eq, not_false_eq_true, and_self, if_true]

theorem unsigned_whole {s : List Char} (hs : s ≠ []) (h : s.all Char.isDigit = true) :
    unsigned s = some (Nat.ofDigitChars 10 s 0, 0) := by
  simp only [unsigned, take_all h, List.drop_nil, List.append_nil, h, hs, ne_eq, not_false_eq_true, and_self, if_true, List.length_nil]

theorem reads_unsigned {s : List Char} (h : s.head? ≠ some '-') : reads s = (unsigned s).map fun p => (false, p) := by
  unfold reads
  split
  · simp at h
  · rfl

/-- Zeros before the digits do not matter. -/
theorem unsigned_body (k d n : Nat) : unsigned (List.replicate k '0' ++ body d n) = some (n, d) := by
  have hz : (List.replicate k '0').all Char.isDigit = true := by
    rw [List.all_eq_true]; intro c hc; rw [(List.mem_replicate.1 hc).2]; decide
  have h1 : (List.replicate k '0' ++ digits 1 (n / 10 ^ d)).all Char.isDigit = true := by
    rw [List.all_append, hz, digits_isDigit]; rfl
  have h0 : List.replicate k '0' ++ digits 1 (n / 10 ^ d) ≠ [] := by simp [digits_ne]
  unfold body
  by_cases hd : d = 0
  · rw [if_pos hd, List.append_nil, unsigned_whole h0 h1, zeros, digits_value]; simp [hd]
  · rw [if_neg hd, ← List.append_assoc, unsigned_dec h0 h1 (digits_isDigit _ _), append_value, zeros, digits_value, digits_value,
      digits_length (Nat.mod_lt _ (Nat.pow_pos (by decide))) hd, Nat.mul_comm, Nat.div_add_mod]

theorem head_body (k d n : Nat) : (List.replicate k '0' ++ body d n).head? ≠ some '-' := by
  intro h
  have : ∃ c t, List.replicate k '0' ++ digits 1 (n / 10 ^ d) = c :: t ∧ c.isDigit = true := by
    have h1 : (List.replicate k '0' ++ digits 1 (n / 10 ^ d)).all Char.isDigit = true := by
      rw [List.all_append, digits_isDigit, Bool.and_true, List.all_eq_true]
      intro c hc; rw [(List.mem_replicate.1 hc).2]; decide
    cases he : List.replicate k '0' ++ digits 1 (n / 10 ^ d) with
    | nil => simp [digits_ne] at he
    | cons c t => rw [he] at h1; simp only [List.all_cons, Bool.and_eq_true] at h1; exact ⟨c, t, rfl, h1.1⟩
  obtain ⟨c, t, he, hc⟩ := this
  rw [body, ← List.append_assoc, he] at h
  simp only [List.cons_append, List.head?_cons, Option.some.injEq] at h
  exact (isDigit_ne hc).2 h

theorem reads_text (v : Value) (w d : Nat) : reads (text v w d) = some (v.neg, nearest (v.num * 10 ^ d) v.den, d) := by
  unfold text
  cases v.neg
  · simp only [Bool.false_eq_true, if_false, List.nil_append]
    rw [reads_unsigned (head_body _ _ _), unsigned_body]; rfl
  · simp only [if_true, List.cons_append, List.nil_append, reads]
    rw [unsigned_body]; rfl

theorem nearest_near (q d : Nat) (hd : 0 < d) : 2 * (nearest q d * d) ≤ 2 * q + d ∧ 2 * q ≤ 2 * (nearest q d * d) + d := by
  have h1 := Nat.div_add_mod q d
  have h2 := Nat.mod_lt q hd
  have h3 : q / d * d = d * (q / d) := Nat.mul_comm _ _
  have h4 : (q / d + 1) * d = d * (q / d) + d := by rw [Nat.add_mul, h3, Nat.one_mul]
  unfold nearest
  split
  · omega
  · split
    · rw [h4]; omega
    · split
      · omega
      · rw [h4]; omega

theorem little_eq : ∀ bs : List Nat, Model.Fxp.leDecode bs = little bs
  | [] => rfl
  | b :: bs => by simp [Model.Fxp.leDecode, little, little_eq bs]

theorem signed_eq (bs : List Nat) (k : Nat) (h : bs.length = k) (hk : k = 2 ∨ k = 4) :
    (if little bs < 2 ^ (8 * k - 1) then (little bs : Int) else (little bs : Int) - 2 ^ (8 * k)) = signed bs := by
  unfold signed
  rw [h]
  rcases hk with rfl | rfl <;> simp only [Nat.reduceMul, Nat.reduceSub, Nat.reducePow, Int.reducePow] <;> split <;> split <;> omega

theorem reads_zeroPad (w : Nat) (n : Int) : reads (Model.Fxp.zeroPad w n).toList = some (decide (n < 0), n.natAbs, 0) := by
  have hd : ∀ k, unsigned (List.replicate k '0' ++ Nat.toDigits 10 n.natAbs) = some (n.natAbs, 0) := by
    intro k
    have h : (List.replicate k '0' ++ Nat.toDigits 10 n.natAbs).all Char.isDigit = true := by
      rw [List.all_eq_true]
      intro c hc
      rcases List.mem_append.1 hc with hc | hc
      · rw [(List.mem_replicate.1 hc).2]; decide
      · exact Nat.isDigit_of_mem_toDigits (by decide) (by decide) hc
    rw [unsigned_whole (by simp [Nat.toDigits_ne_nil]) h, zeros, Nat.ofDigitChars_ten_toDigits]
  have hh : ∀ k, (List.replicate k '0' ++ Nat.toDigits 10 n.natAbs).head? ≠ some '-' := by
    intro k he
    have hm := List.mem_of_head? he
    rcases List.mem_append.1 hm with hc | hc
    · exact absurd (List.mem_replicate.1 hc).2 (by decide)
    · exact (isDigit_ne (Nat.isDigit_of_mem_toDigits (b := 10) (by decide) (by decide) hc)).2 rfl
  have ht : (toString n.natAbs).toList = Nat.toDigits 10 n.natAbs := by simp [toString, Nat.repr]
  unfold Model.Fxp.zeroPad
  by_cases hn : n < 0
  · simp only [hn, if_true, String.toList_append, ht, String.toList_ofList, decide_true]
    rw [show "-".toList = ['-'] from rfl, List.cons_append, List.nil_append, List.cons_append]
    simp only [reads, hd, Option.map_some]
  · simp only [hn, if_false, String.toList_append, ht, String.toList_ofList, decide_false]
    rw [reads_unsigned (hh _), hd, Option.map_some]

theorem near_scale {n d num den k : Nat} (h : Near n d num den) : Near n d (num * k) (den * k) := by
  unfold Near at *
  have h1 := Nat.mul_le_mul_right k h.1
  have h2 := Nat.mul_le_mul_right k h.2
  simp only [Nat.add_mul, Nat.mul_assoc] at h1 h2
  rw [show n * (den * k) = n * den * k from (Nat.mul_assoc _ _ _).symm, show num * k * 10 ^ d = num * 10 ^ d * k from Nat.mul_right_comm _ _ _]
  simp only [Nat.mul_assoc]
  exact ⟨h1, h2⟩

theorem near_text (v : Value) (w d : Nat) (h : 0 < v.den) :
    ∃ n, reads (text v w d) = some (v.neg, n, d) ∧ Near n d v.num v.den :=
  ⟨_, reads_text v w d, nearest_near _ _ h⟩

theorem double_fields (neg : Bool) (e m : Nat) (he : e < 2047) (hm : m < 2 ^ 52) :
    ∃ v k, double ((if neg then 2 ^ 63 else 0) + e * 2 ^ 52 + m) = some v ∧ v.neg = neg ∧ 0 < v.den ∧
      v.num * k = significand e m ∧ v.den * k = 2 ^ 1075 := by
  have hb : ((if neg then 2 ^ 63 else 0) + e * 2 ^ 52 + m) % 2 ^ 52 = m := by split <;> omega
  have hc : ((if neg then 2 ^ 63 else 0) + e * 2 ^ 52 + m) / 2 ^ 52 % 2 ^ 11 = e := by split <;> omega
  have ha : decide (2 ^ 63 ≤ (if neg then 2 ^ 63 else 0) + e * 2 ^ 52 + m) = neg := by
    cases neg
    · simp; omega
    · simp; omega
  simp only [double, ha, hb, hc, if_neg (Nat.ne_of_lt he)]
  by_cases h0 : e = 0
  · refine ⟨_, 2, if_pos h0, rfl, Nat.pow_pos (by decide), ?_, ?_⟩
    · simp [significand, h0, Nat.mul_comm]
    · exact (Nat.pow_succ (n := 2) (m := 1074)).symm
  · rw [if_neg h0]
    by_cases h1 : e < 1075
    · refine ⟨_, 2 ^ e, if_pos h1, rfl, Nat.pow_pos (by decide), ?_, ?_⟩
      · simp only [significand, if_neg h0]
      · show 2 ^ (1075 - e) * 2 ^ e = 2 ^ 1075
        rw [← Nat.pow_add]; congr 1; omega
    · refine ⟨_, 2 ^ 1075, if_neg h1, rfl, Nat.one_pos, ?_, Nat.one_mul _⟩
      show (2 ^ 52 + m) * 2 ^ (e - 1075) * 2 ^ 1075 = _
      rw [significand, if_neg h0, Nat.mul_assoc, ← Nat.pow_add]
      congr 2; omega

theorem same_number {n' n d num den : Nat} (h : Near n' d num den) (hs : StandsFor num den n d) (hn : n < 2 ^ 52) (hd : 0 < den) :
    n' = n := by
  have h1 : n * den < 2 ^ 52 * den := Nat.mul_lt_mul_of_pos_right hn hd
  unfold Near at h; unfold StandsFor at hs
  generalize hq : num * 10 ^ d = q at h hs
  generalize hN : n * den = N at h1 hs
  generalize hM : n' * den = M at h
  have h2 : M < N + den := by omega
  have h3 : N < M + den := by omega
  rw [← hM, ← hN, ← Nat.succ_mul] at h2
  rw [← hM, ← hN, ← Nat.succ_mul] at h3
  have := Nat.lt_of_mul_lt_mul_right h2
  have := Nat.lt_of_mul_lt_mul_right h3
  omega

end FxpNumbersAux
open FxpNumbersAux

/-- C150: a number with decimals is listed with as many decimals as the file says, and as the number with so many decimals
that is nearest to the value in the file. -/
theorem C150_double (w d : Nat) (bs rest : List Nat) (neg : Bool) (e m : Nat) (h : Holds bs neg e m) :
    ∃ t n, readDouble (w :: d :: (bs ++ rest)) = .ok (some t, rest) ∧ reads t = some (neg, n, d) ∧
      Near n d (significand e m) (2 ^ 1075) := by
  obtain ⟨hl, he, hm, hb⟩ := h
  obtain ⟨v, k, h1, h2, h3, h4, h5⟩ := double_fields neg e m he hm
  obtain ⟨n, h6, h7⟩ := near_text v (w - 1) d h3
  refine ⟨text v (w - 1) d, n, ?_, h2 ▸ h6, h4 ▸ h5 ▸ near_scale h7⟩
  have ht : (bs ++ rest).take 8 = bs := by rw [← hl]; simp
  have hr : (bs ++ rest).drop 8 = rest := by rw [← hl]; simp
  simp only [readDouble, ht, hr, little_eq, hb, h1, Option.map_some]
  rw [if_neg (by simp [hl])]

-- 12.34
example : ∃ t n, readDouble (5 :: 2 :: ([174, 71, 225, 122, 20, 174, 40, 64] ++ [0xFD])) = .ok (some t, [0xFD]) ∧ reads t = some (false, n, 2) ∧
    Near n 2 (significand 1026 2443202797848494) (2 ^ 1075) :=
  C150_double 5 2 _ _ false 1026 2443202797848494 (by unfold Holds; decide +kernel)
example : readDouble (5 :: 2 :: ([174, 71, 225, 122, 20, 174, 40, 64] ++ [0xFD])) = .ok (some "12.34".toList, [0xFD]) := by rfl

/-- C150: a constant of up to 15 digits is listed as this constant, whatever its number of decimals, if the file has the
floating point number that stands for it. -/
theorem C150_constant (w d n : Nat) (bs rest : List Nat) (neg : Bool) (e m : Nat) (h : Holds bs neg e m) (hn : n < 2 ^ 52)
    (hs : StandsFor (significand e m) (2 ^ 1075) n d) :
    ∃ t, readDouble (w :: d :: (bs ++ rest)) = .ok (some t, rest) ∧ reads t = some (neg, n, d) := by
  obtain ⟨t, n', h1, h2, h3⟩ := C150_double w d bs rest neg e m h
  exact ⟨t, h1, same_number h3 hs hn (Nat.pow_pos (by decide)) ▸ h2⟩

example : ∃ t, readDouble (8 :: 2 :: ([174, 71, 225, 122, 20, 174, 40, 64] ++ [0xFD])) = .ok (some t, [0xFD]) ∧ reads t = some (false, 1234, 2) :=
  C150_constant 8 2 1234 _ _ false 1026 2443202797848494 (by unfold Holds; decide +kernel) (by decide) (by unfold StandsFor; decide +kernel)
example : (text ⟨true, 1234, 100⟩ 10 2, text ⟨false, 5, 2⟩ 0 0) = ("-0012.34".toList, "2".toList) := by decide +kernel

/-- C150: a whole number in one byte, and in two and four bytes with a sign, is listed as this number. -/
theorem C150_whole (w : Nat) (bs rest : List Nat) :
    (bs.length = 1 → ∃ t, Model.Fxp.readDigits 1 false (w :: (bs ++ rest)) = .ok (.num t, rest) ∧
      reads t.toList = some (false, little bs, 0)) ∧
    (bs.length = 2 ∨ bs.length = 4 → ∃ t, Model.Fxp.readDigits bs.length true (w :: (bs ++ rest)) = .ok (.num t, rest) ∧
      reads t.toList = some (decide (signed bs < 0), (signed bs).natAbs, 0)) := by
  have hz := reads_zeroPad w
  have ht : (bs ++ rest).take bs.length = bs := by simp
  have hr : (bs ++ rest).drop bs.length = rest := by simp
  constructor
  · intro h
    refine ⟨Model.Fxp.zeroPad w (little bs : Int), ?_, ?_⟩
    · rw [h] at ht hr
      simp [Model.Fxp.readDigits, Model.Fxp.read1, Model.Fxp.readUInt, ht, hr, little_eq, h]
    · rw [hz]; simp
  · intro h
    refine ⟨Model.Fxp.zeroPad w (signed bs), ?_, hz _⟩
    simp only [Model.Fxp.readDigits, Model.Fxp.read1, Model.Fxp.readSInt, ht, hr, little_eq, if_true, List.length_append,
      if_neg (show ¬ bs.length + rest.length < bs.length by omega)]
    rw [signed_eq bs bs.length rfl h]

example : ∃ t, Model.Fxp.readDigits 2 true (6 :: ([0x39, 0x30] ++ [0xFD])) = .ok (.num t, [0xFD]) ∧ reads t.toList = some (false, 12345, 0) :=
  (C150_whole 6 [0x39, 0x30] [0xFD]).2 (.inl rfl)

/-- C150: a number of 65536ths is listed with four decimals, and as what it is exactly if it is a multiple of 1/16. -/
theorem C150_fixed_iff (bs rest : List Nat) (h : bs.length = 4) :
    ∃ t n, readFloat (bs ++ rest) = .ok (t, rest) ∧ reads t = some (decide (signed bs < 0), n, 4) ∧
      Near n 4 (signed bs).natAbs 65536 ∧ (Same n 4 (signed bs).natAbs 65536 ↔ (4096 : Int) ∣ signed bs) := by
  obtain ⟨n, h1, h2⟩ := near_text ⟨decide (signed bs < 0), (signed bs).natAbs, 65536⟩ 10 4 (Nat.succ_pos _)
  refine ⟨_, n, ?_, h1, h2, ?_⟩
  · have ht : (bs ++ rest).take 4 = bs := by rw [← h]; simp
    have hr : (bs ++ rest).drop 4 = rest := by rw [← h]; simp
    simp only [readFloat, Model.Fxp.readSInt, ht, hr, little_eq, List.length_append, h,
      if_neg (show ¬ 4 + rest.length < 4 by omega)]
    rw [signed_eq bs 4 h (.inr rfl)]
  · unfold Near at h2; unfold Same; simp only [] at h2
    constructor
    · intro hs; omega
    · intro hs; omega

example : ∃ t n, readFloat ([0, 0x40, 1, 0] ++ [0xFD]) = .ok (t, [0xFD]) ∧ reads t = some (false, n, 4) ∧
    Near n 4 81920 65536 ∧ (Same n 4 81920 65536 ↔ (4096 : Int) ∣ 81920) := C150_fixed_iff [0, 0x40, 1, 0] [0xFD] rfl
example : readFloat ([0, 0x40, 1, 0] ++ [0xFD]) = .ok ("1.2500".toList, [0xFD]) ∧
    readFloat ([1, 0, 0, 0] ++ [0xFD]) = .ok ("0.0000".toList, [0xFD]) := ⟨rfl, rfl⟩

end Props
