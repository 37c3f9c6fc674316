import Verif.Model.Dates
/-!
# Dates as texts (C82)
-/
namespace Props
open Model.Dates

namespace DateSpec

/-- The order of texts: by the first character that differs. -/
inductive Before : Str → Str → Prop
  | nil (c s) : Before [] (c :: s)
  | head {a b : Char} (s t) : a.toNat < b.toNat → Before (a :: s) (b :: t)
  | tail (c) {s t} : Before s t → Before (c :: s) (c :: t)

/-- A text of decimal digits with its value. -/
def Numeral (s : List Char) (n : Nat) : Prop :=
  (∀ c ∈ s, 48 ≤ c.toNat ∧ c.toNat ≤ 57) ∧ s.foldl (fun v c => 10 * v + (c.toNat - 48)) 0 = n

/-- Leap years of the Gregorian calendar. -/
def Leap (y : Nat) : Bool := if 400 ∣ y then true else if 100 ∣ y then false else 4 ∣ y

/-- Lengths of the months. -/
def monthLength (y m : Nat) : Nat :=
  [31, if Leap y then 29 else 28, 31, 30, 31, 30, 31, 31, 30, 31, 30, 31].getD (m - 1) 0

/-- A day of the calendar. -/
def IsDate (d : Date) : Prop :=
  1 ≤ d.year ∧ d.year ≤ 9999 ∧ 1 ≤ d.month ∧ d.month ≤ 12 ∧ 1 ≤ d.day ∧ d.day ≤ monthLength d.year d.month

def IsTime (t : Time) : Prop := t.hour < 24 ∧ t.minute < 60 ∧ t.second < 60

/-- Earlier and later. -/
def Earlier (a b : Date) : Prop :=
  a.year < b.year ∨ a.year = b.year ∧ (a.month < b.month ∨ a.month = b.month ∧ a.day < b.day)

def EarlierTime (a b : Time) : Prop :=
  a.hour < b.hour ∨ a.hour = b.hour ∧ (a.minute < b.minute ∨ a.minute = b.minute ∧ a.second < b.second)

instance (d : Date) : Decidable (IsDate d) := by unfold IsDate; infer_instance

end DateSpec
open DateSpec

namespace DateAux

theorem digit_toNat (n : Nat) : (digit n).toNat = 48 + n % 10 := by
  unfold digit
  have h : n % 10 < 10 := Nat.mod_lt _ (by omega)
  generalize n % 10 = k at h
  match k, h with
  | 0, _ => rfl | 1, _ => rfl | 2, _ => rfl | 3, _ => rfl | 4, _ => rfl
  | 5, _ => rfl | 6, _ => rfl | 7, _ => rfl | 8, _ => rfl | 9, _ => rfl

theorem digits_length (w n : Nat) : (digits w n).length = w := by
  induction w generalizing n with
  | zero => rfl
  | succ w ih => simp [digits, ih]

theorem before_append {a b s t : Str} (h : a.length = b.length) : Before (a ++ s) (b ++ t) ↔ Before a b ∨ (a = b ∧ Before s t) := by
  induction a generalizing b with
  | nil =>
    cases b with
    | nil =>
      constructor
      · intro h'; exact .inr ⟨rfl, h'⟩
      · rintro (h | ⟨_, h⟩)
        · cases h
        · exact h
    | cons c b => simp at h
  | cons c a ih =>
    cases b with
    | nil => simp at h
    | cons d b =>
      have ih := ih (b := b) (by simpa using h)
      simp only [List.cons_append]
      constructor
      · intro h
        cases h with
        | head _ _ hlt => exact .inl (.head _ _ hlt)
        | tail _ h =>
          rcases ih.mp h with h' | ⟨e, h'⟩
          · exact .inl (.tail _ h')
          · exact .inr ⟨by rw [e], h'⟩
      · rintro (h | ⟨e, h⟩)
        · cases h with
          | head _ _ hlt => exact .head _ _ hlt
          | tail _ h => exact .tail _ (ih.mpr (.inl h))
        · rw [List.cons.injEq] at e
          rw [e.1]
          exact .tail _ (ih.mpr (.inr ⟨e.2, h⟩))

theorem before_one (a b : Char) : Before [a] [b] ↔ a.toNat < b.toNat := by
  constructor
  · intro h
    cases h with
    | head _ _ h => exact h
    | tail _ h => cases h
  · exact fun h => .head _ _ h

theorem digit_inj {n m : Nat} (h : digit n = digit m) : n % 10 = m % 10 := by
  have := congrArg Char.toNat h
  rw [digit_toNat, digit_toNat] at this
  omega

theorem digits_inj {w n m : Nat} (hn : n < 10 ^ w) (hm : m < 10 ^ w) (h : digits w n = digits w m) : n = m := by
  induction w generalizing n m with
  | zero => simp at hn hm; omega
  | succ w ih =>
    simp only [digits] at h
    obtain ⟨h1, h2⟩ := List.append_inj h (by simp [digits_length])
    injection h2 with h2 _
    have := digit_inj h2
    have := ih (by rw [Nat.pow_succ] at hn; omega) (by rw [Nat.pow_succ] at hm; omega) h1
    omega

theorem digits_before {w n m : Nat} (hn : n < 10 ^ w) (hm : m < 10 ^ w) : Before (digits w n) (digits w m) ↔ n < m := by
  induction w generalizing n m with
  | zero =>
    constructor
    · intro h; cases h
    · simp at hn hm; omega
  | succ w ih =>
    have hn' : n / 10 < 10 ^ w := by rw [Nat.pow_succ] at hn; omega
    have hm' : m / 10 < 10 ^ w := by rw [Nat.pow_succ] at hm; omega
    simp only [digits]
    rw [before_append (by simp [digits_length]), ih hn' hm', before_one, digit_toNat, digit_toNat]
    constructor
    · rintro (h | ⟨h, h'⟩)
      · omega
      · have := digits_inj hn' hm' h; omega
    · intro h
      by_cases h' : n / 10 < m / 10
      · exact .inl h'
      · have : n / 10 = m / 10 := by omega
        exact .inr ⟨by rw [this], by omega⟩

/-- Fixed-width numbers in front. -/
theorem digits_append_before {w n m : Nat} (hn : n < 10 ^ w) (hm : m < 10 ^ w) (s t : Str) :
    Before (digits w n ++ s) (digits w m ++ t) ↔ n < m ∨ (n = m ∧ Before s t) := by
  rw [before_append (by simp [digits_length]), digits_before hn hm]
  constructor
  · rintro (h | ⟨h, h'⟩)
    · exact .inl h
    · exact .inr ⟨digits_inj hn hm h, h'⟩
  · rintro (h | ⟨rfl, h'⟩)
    · exact .inl h
    · exact .inr ⟨rfl, h'⟩

theorem daysIn_eq {y m : Nat} (h1 : 1 ≤ m) (h2 : m ≤ 12) : daysIn y m = monthLength y m := by
  have leap : (if y % 4 = 0 ∧ (y % 100 ≠ 0 ∨ y % 400 = 0) then 29 else 28) = if Leap y then 29 else 28 := by
    unfold Leap
    by_cases h400 : 400 ∣ y
    · rw [if_pos (by omega)]; simp [h400]
    · by_cases h100 : 100 ∣ y
      · rw [if_neg (by omega)]; simp [h400, h100]
      · by_cases h4 : 4 ∣ y
        · rw [if_pos (by omega)]; simp [h400, h100, h4]
        · rw [if_neg (by omega)]; simp [h400, h100, h4]
  unfold daysIn monthLength
  rw [leap]
  match m, h1, h2 with
  | 1, _, _ | 2, _, _ | 3, _, _ | 4, _, _ | 5, _, _ | 6, _, _ | 7, _, _ | 8, _, _ | 9, _, _ | 10, _, _ | 11, _, _ | 12, _, _ => simp

theorem daysIn_le (y m : Nat) : daysIn y m ≤ 31 := by
  unfold daysIn
  split
  · split <;> omega
  · split <;> omega

theorem year_eq {y : Nat} (h : 1000 ≤ y) : yearText y = digits 4 y := by
  unfold yearText
  rw [if_neg (by omega), if_neg (by omega), if_neg (by omega)]

end DateAux
open DateAux

/-- **C82** from the year 1000 on: `DTOS` sorts dates in the order of time. -/
theorem C82_dtos_dates_partial (a b : Date) (ha : IsDate a) (hb : IsDate b) (ya : 1000 ≤ a.year) (yb : 1000 ≤ b.year) :
    Before (dtos ⟨a, none⟩) (dtos ⟨b, none⟩) ↔ Earlier a b := by
  obtain ⟨_, h1, h0, h2, _, h3⟩ := ha
  obtain ⟨_, g1, g0, g2, _, g3⟩ := hb
  rw [← daysIn_eq h0 h2] at h3
  rw [← daysIn_eq g0 g2] at g3
  have := daysIn_le a.year a.month
  have := daysIn_le b.year b.month
  simp only [dtos, year_eq ya, year_eq yb, List.append_assoc]
  rw [digits_append_before (by omega) (by omega), digits_append_before (by omega) (by omega),
    digits_append_before (by omega) (by omega)]
  unfold Earlier
  have : ¬ Before [] [] := fun h => by cases h
  simp [this]

example : Before (dtos ⟨⟨2024, 2, 29⟩, none⟩) (dtos ⟨⟨2024, 3, 1⟩, none⟩) :=
  (C82_dtos_dates_partial _ _ (by decide) (by decide) (by decide) (by decide)).mpr (by simp [Earlier])

/-- **C82** from the year 1000 on: `DTOS` of values with a time (`TTOC(t, 1)`) sorts them in the order of
time. -/
theorem C82_dtos_times_partial (a b : Date) (s t : Time) (ha : IsDate a) (hb : IsDate b) (hs : IsTime s) (ht : IsTime t)
    (ya : 1000 ≤ a.year) (yb : 1000 ≤ b.year) :
    Before (dtos ⟨a, some s⟩) (dtos ⟨b, some t⟩) ↔ Earlier a b ∨ (a = b ∧ EarlierTime s t) := by
  obtain ⟨_, h1, h0, h2, _, h3⟩ := ha
  obtain ⟨_, g1, g0, g2, _, g3⟩ := hb
  rw [← daysIn_eq h0 h2] at h3
  rw [← daysIn_eq g0 g2] at g3
  obtain ⟨h4, h5, h6⟩ := hs
  obtain ⟨g4, g5, g6⟩ := ht
  have := daysIn_le a.year a.month
  have := daysIn_le b.year b.month
  simp only [dtos, year_eq ya, year_eq yb, List.append_assoc]
  rw [digits_append_before (by omega) (by omega), digits_append_before (by omega) (by omega),
    digits_append_before (by omega) (by omega), digits_append_before (by omega) (by omega),
    digits_append_before (by omega) (by omega), digits_before (by omega) (by omega)]
  obtain ⟨y, m, d⟩ := a
  obtain ⟨y', m', d'⟩ := b
  simp only [Earlier, EarlierTime, Date.mk.injEq]
  omega

example : IsDate ⟨2024, 2, 29⟩ ∧ IsDate ⟨2024, 3, 1⟩ ∧ IsTime ⟨23, 59, 59⟩ ∧ Earlier ⟨2024, 2, 29⟩ ⟨2024, 3, 1⟩ ∧
    dtos ⟨⟨2024, 2, 29⟩, none⟩ = "20240229".toList := by
  refine ⟨by decide, by decide, by simp [IsTime], by simp [Earlier], by decide⟩

/-- **C82** fails before the year 1000: the year is written without leading zeros, so a date of a
year of three, two digits or one is sorted behind later dates whose year begins with a smaller digit. -/
theorem C82_dtos_fails (a b : Date) (ha : IsDate a) (hb : IsDate b) (k : Nat) (hk : k < 3)
    (h1 : 10 ^ k ≤ a.year) (h2 : a.year < 10 ^ (k + 1)) (hy : 1000 ≤ b.year)
    (hd : b.year / 1000 < a.year / 10 ^ k) :
    Earlier a b ∧ Before (dtos ⟨b, none⟩) (dtos ⟨a, none⟩) := by
  obtain ⟨-, g1, -⟩ := hb
  have hlt : a.year < b.year := by
    have : 10 ^ (k + 1) ≤ 10 ^ 3 := Nat.pow_le_pow_right (by omega) (by omega)
    omega
  refine ⟨Or.inl hlt, ?_⟩
  have hb0 : dtos ⟨b, none⟩ = digit (b.year / 10 / 10 / 10) :: ([digit (b.year / 10 / 10), digit (b.year / 10), digit b.year]
      ++ digits 2 b.month ++ digits 2 b.day) := by
    simp [dtos, year_eq hy, digits]
  rw [hb0]
  match k, hk with
  | 0, _ =>
    simp at h1 h2 hd
    have : dtos ⟨a, none⟩ = digit a.year :: (digits 2 a.month ++ digits 2 a.day) := by
      simp [dtos, yearText, h2, digits]
    rw [this]
    refine .head _ _ ?_
    rw [digit_toNat, digit_toNat]
    omega
  | 1, _ =>
    simp at h1 h2 hd
    have : dtos ⟨a, none⟩ = digit (a.year / 10) :: (digit a.year :: digits 2 a.month ++ digits 2 a.day) := by
      simp [dtos, yearText, h2, digits, show ¬ a.year < 10 by omega]
    rw [this]
    refine .head _ _ ?_
    rw [digit_toNat, digit_toNat]
    omega
  | 2, _ =>
    simp at h1 h2 hd
    have : dtos ⟨a, none⟩ = digit (a.year / 10 / 10) :: ([digit (a.year / 10), digit a.year] ++ digits 2 a.month ++ digits 2 a.day) := by
      simp [dtos, yearText, h2, digits, show ¬ a.year < 10 by omega, show ¬ a.year < 100 by omega]
    rw [this]
    refine .head _ _ ?_
    rw [digit_toNat, digit_toNat]
    omega

example : IsDate ⟨999, 1, 1⟩ ∧ IsDate ⟨2000, 1, 1⟩ ∧ dtos ⟨⟨999, 1, 1⟩, none⟩ = "9990101".toList ∧
    dtos ⟨⟨2000, 1, 1⟩, none⟩ = "20000101".toList := by decide +kernel

namespace DateAux

theorem digitVal_digit (n : Nat) : digitVal (digit n) = some (n % 10) := by
  have := digit_toNat n
  have h : n % 10 < 10 := Nat.mod_lt _ (by omega)
  unfold digitVal
  rw [if_pos (by omega), this]
  congr 1
  omega

theorem two (n : Nat) : digits 2 n = [digit (n / 10), digit n] := rfl
theorem four (n : Nat) : digits 4 n = [digit (n / 10 / 10 / 10), digit (n / 10 / 10), digit (n / 10), digit n] := rfl

theorem digit_ne_slash (n : Nat) : digit n ≠ '/' := by
  intro h
  have := congrArg Char.toNat h
  rw [digit_toNat] at this
  have : ('/' : Char).toNat = 47 := rfl
  omega

theorem digit_ne_blank (n : Nat) : digit n ≠ ' ' := by
  intro h
  have := congrArg Char.toNat h
  rw [digit_toNat] at this
  have : (' ' : Char).toNat = 32 := rfl
  omega

theorem cut_two (n : Nat) (s : Str) : cutSlash (digits 2 n ++ '/' :: s) = some (digits 2 n, s) := by
  simp [two, cutSlash, digit_ne_slash]

theorem month_two {n : Nat} (h1 : 1 ≤ n) (h2 : n ≤ 12) : parseMonth (digits 2 n) = some n := by
  have : 10 * (n / 10 % 10) + n % 10 = n := by omega
  simp only [two, parseMonth, digitVal_digit, Option.bind_some, this]
  rw [if_pos ⟨h1, h2⟩]

theorem day_two {n : Nat} (h1 : 1 ≤ n) (h2 : n ≤ 31) : parseDay (digits 2 n) = some n := by
  have : 10 * (n / 10 % 10) + n % 10 = n := by omega
  simp only [two, parseDay, digitVal_digit, Option.bind_some, this, digit_ne_blank, if_false]
  rw [if_pos ⟨h1, h2⟩]

theorem year_four {n : Nat} (h : n ≤ 9999) : parseYear (digits 4 n) = some n := by
  simp only [four, parseYear, digitVal_digit, Option.bind_some]
  congr 1
  omega

end DateAux

/-- **C82** from the year 1000 on: `CTOD(DTOC(d))` is `d`. -/
theorem C82_ctod_dtoc_partial (d : Date) (hd : IsDate d) (y : 1000 ≤ d.year) : ctod (dtoc ⟨d, none⟩) = some d := by
  have h := hd
  obtain ⟨h0, h1, h2, h3, h4, h5⟩ := h
  rw [← daysIn_eq h2 h3] at h5
  have := daysIn_le d.year d.month
  have e : dtoc ⟨d, none⟩ = digits 2 d.month ++ '/' :: (digits 2 d.day ++ '/' :: digits 4 d.year) := by
    simp [dtoc, year_eq y]
  rw [e]
  simp only [ctod, cut_two, Option.bind_some, month_two h2 h3, day_two h4 (by omega), year_four h1, makeDate]
  rw [if_pos ⟨h0, h1, h2, h3, h4, h5⟩]

example : IsDate ⟨2024, 12, 31⟩ ∧ dtoc ⟨⟨2024, 12, 31⟩, none⟩ = "12/31/2024".toList := by decide +kernel

/-- **C82**: whatever `CTOD` returns is a day of the calendar. -/
theorem C82_ctod_valid (s : Str) (d : Date) (h : ctod s = some d) : IsDate d := by
  unfold ctod at h
  simp only [Option.bind_eq_some_iff, Prod.exists] at h
  obtain ⟨a, r, _, b, c, _, m, _, dd, _, y, _, h⟩ := h
  unfold makeDate at h
  split at h
  · next hc =>
    injection h with h
    subst h
    rw [daysIn_eq hc.2.2.1 hc.2.2.2.1] at hc
    exact hc
  · cases h

example : ctod "2/29/2024".toList = some ⟨2024, 2, 29⟩ ∧ ctod "02/30/2024".toList = none := by decide +kernel

namespace DateAux

theorem cut_free {a : Str} (s : Str) (h : '/' ∉ a) : cutSlash (a ++ '/' :: s) = some (a, s) := by
  induction a with
  | nil => rfl
  | cons c a ih =>
    have hc : c ≠ '/' := fun e => h (by rw [e]; exact List.mem_cons_self)
    rw [List.cons_append, cutSlash, if_neg hc, ih (fun hm => h (List.mem_cons_of_mem _ hm))]
    rfl

theorem year_length {s : Str} (h : s.length ≠ 4) : parseYear s = none := by
  match s, h with
  | [], _ | [_], _ | [_, _], _ | [_, _, _], _ => rfl
  | [_, _, _, _], h => exact absurd rfl h
  | _ :: _ :: _ :: _ :: _ :: _, _ => rfl

theorem two_numeral {n : Nat} (h : n < 100) : Numeral (digits 2 n) n := by
  have h1 := digit_toNat (n / 10)
  have h2 := digit_toNat n
  rw [two]
  refine ⟨?_, ?_⟩
  · intro c hc
    simp only [List.mem_cons, List.not_mem_nil, or_false] at hc
    rcases hc with rfl | rfl <;> omega
  · simp only [List.foldl_cons, List.foldl_nil]
    omega

end DateAux

/-- **C82** fails: the empty text, which FoxPro turns into the empty date, is an error, and so is every
date whose year does not have four digits, which FoxPro completes.  The text of a date with a time has no
separator between the year and the hour, so CTOD never reads it. -/
theorem C82_ctod_fails :
    ctod [] = none ∧
    (∀ m d y : Str, '/' ∉ m → '/' ∉ d → y.length ≠ 4 → ctod (m ++ '/' :: (d ++ '/' :: y)) = none) ∧
    ∀ (d : Date) (t : Time), IsTime t →
      (∃ h m s : Str, (h.length = 2 ∧ Numeral h t.hour) ∧ (m.length = 2 ∧ Numeral m t.minute) ∧ (s.length = 2 ∧ Numeral s t.second) ∧
        dtoc ⟨d, some t⟩ = dtoc ⟨d, none⟩ ++ h ++ ':' :: m ++ ':' :: s) ∧
      ctod (dtoc ⟨d, some t⟩) = none := by
  have key : ∀ m d y : Str, '/' ∉ m → '/' ∉ d → y.length ≠ 4 → ctod (m ++ '/' :: (d ++ '/' :: y)) = none := by
    intro m d y hm hd hy
    simp only [ctod, cut_free _ hm, cut_free _ hd, Option.bind_some, year_length hy, Option.bind_none]
    cases parseMonth m <;> cases parseDay d <;> rfl
  refine ⟨rfl, key, fun d t ⟨hh, hm, hs⟩ => ?_⟩
  have e : dtoc ⟨d, some t⟩ = digits 2 d.month ++ '/' :: (digits 2 d.day ++ '/' ::
      (yearText d.year ++ (digits 2 t.hour ++ ':' :: digits 2 t.minute ++ ':' :: digits 2 t.second))) := by
    simp [dtoc]
  have free : ∀ n, '/' ∉ digits 2 n := by
    intro n hm
    simp only [two, List.mem_cons, List.not_mem_nil, or_false] at hm
    rcases hm with hm | hm
    · exact digit_ne_slash _ hm.symm
    · exact digit_ne_slash _ hm.symm
  refine ⟨⟨digits 2 t.hour, digits 2 t.minute, digits 2 t.second, ⟨rfl, two_numeral (by omega)⟩, ⟨rfl, two_numeral (by omega)⟩,
    ⟨rfl, two_numeral (by omega)⟩, by simp [dtoc]⟩, ?_⟩
  rw [e]
  refine key _ _ _ (free _) (free _) ?_
  simp [digits_length]

example : ctod "01/31/99".toList = none ∧ ('/' ∉ "01".toList ∧ "99".toList.length ≠ 4) ∧
    IsTime ⟨10, 5, 0⟩ ∧ dtoc ⟨⟨2024, 1, 31⟩, some ⟨10, 5, 0⟩⟩ = "01/31/202410:05:00".toList :=
  ⟨by decide +kernel, by decide +kernel, ⟨by decide, by decide, by decide⟩, by decide +kernel⟩

namespace DateSpec

/-- The texts of a day of the calendar that CTOD takes: one or two digits for the month and the day, which may have
a blank in front of one digit, and four for the year. -/
def TextOf (s : List Char) (d : Date) : Prop :=
  ∃ m dd y, s = m ++ '/' :: (dd ++ '/' :: y) ∧
    (m.length = 1 ∨ m.length = 2) ∧ Numeral m d.month ∧
    (((dd.length = 1 ∨ dd.length = 2) ∧ Numeral dd d.day) ∨ ∃ c, dd = [' ', c] ∧ Numeral [c] d.day) ∧
    y.length = 4 ∧ Numeral y d.year

end DateSpec
open DateSpec

namespace DateAux

theorem digitVal_iff (c : Char) (n : Nat) : digitVal c = some n ↔ Numeral [c] n := by
  unfold digitVal Numeral
  by_cases h : 48 ≤ c.toNat ∧ c.toNat ≤ 57
  · simp [h]
  · simp [h]

theorem numeral_two (a b : Char) (n : Nat) : Numeral [a, b] n ↔ ∃ x y, Numeral [a] x ∧ Numeral [b] y ∧ n = 10 * x + y := by
  unfold Numeral
  constructor
  · rintro ⟨h, rfl⟩
    exact ⟨_, _, ⟨fun c hc => h c (by simp at hc; simp [hc]), rfl⟩, ⟨fun c hc => h c (by simp at hc; simp [hc]), rfl⟩, by simp⟩
  · rintro ⟨x, y, ⟨h1, rfl⟩, ⟨h2, rfl⟩, rfl⟩
    refine ⟨fun c hc => ?_, by simp⟩
    rcases List.mem_cons.1 hc with rfl | hc
    · exact h1 _ (by simp)
    · exact h2 _ hc

theorem numeral_four (a b c d : Char) (n : Nat) : Numeral [a, b, c, d] n ↔
    ∃ w x y z, Numeral [a] w ∧ Numeral [b] x ∧ Numeral [c] y ∧ Numeral [d] z ∧ n = 1000 * w + 100 * x + 10 * y + z := by
  unfold Numeral
  constructor
  · rintro ⟨h, rfl⟩
    refine ⟨_, _, _, _, ⟨fun c hc => h c (by simp at hc; simp [hc]), rfl⟩, ⟨fun c hc => h c (by simp at hc; simp [hc]), rfl⟩,
      ⟨fun c hc => h c (by simp at hc; simp [hc]), rfl⟩, ⟨fun c hc => h c (by simp at hc; simp [hc]), rfl⟩, by simp; omega⟩
  · rintro ⟨w, x, y, z, ⟨h1, rfl⟩, ⟨h2, rfl⟩, ⟨h3, rfl⟩, ⟨h4, rfl⟩, rfl⟩
    refine ⟨fun c hc => ?_, by simp; omega⟩
    simp only [List.mem_cons, List.not_mem_nil, or_false] at hc
    rcases hc with rfl | rfl | rfl | rfl
    · exact h1 _ (by simp)
    · exact h2 _ (by simp)
    · exact h3 _ (by simp)
    · exact h4 _ (by simp)

theorem month_iff (s : Str) (n : Nat) : parseMonth s = some n ↔ (s.length = 1 ∨ s.length = 2) ∧ Numeral s n ∧ 1 ≤ n ∧ n ≤ 12 := by
  match s with
  | [] => simp [parseMonth]
  | [a] =>
    simp only [parseMonth, Option.bind_eq_some_iff, digitVal_iff]
    constructor
    · rintro ⟨x, hx, h⟩
      split at h <;> cases h
      refine ⟨by simp, hx, by assumption, ?_⟩
      obtain ⟨h1, rfl⟩ := hx
      have := h1 a (by simp)
      simp; omega
    · rintro ⟨_, h, h1, _⟩
      exact ⟨n, h, by rw [if_pos h1]⟩
  | [a, b] =>
    simp only [parseMonth, Option.bind_eq_some_iff, digitVal_iff, numeral_two]
    constructor
    · rintro ⟨x, hx, y, hy, h⟩
      split at h <;> cases h
      exact ⟨by simp, ⟨x, y, hx, hy, rfl⟩, by omega, by omega⟩
    · rintro ⟨_, ⟨x, y, hx, hy, rfl⟩, h1, h2⟩
      exact ⟨x, hx, y, hy, by rw [if_pos ⟨h1, h2⟩]⟩
  | _ :: _ :: _ :: _ => simp [parseMonth]

theorem blank_numeral {b : Char} {n : Nat} : ¬ Numeral [' ', b] n := by
  rintro ⟨h, _⟩
  exact absurd (h ' ' (by simp)) (by decide)

theorem day_iff (s : Str) (n : Nat) : parseDay s = some n ↔
    (((s.length = 1 ∨ s.length = 2) ∧ Numeral s n) ∨ ∃ c, s = [' ', c] ∧ Numeral [c] n) ∧ 1 ≤ n ∧ n ≤ 31 := by
  match s with
  | [] => simp [parseDay]
  | [a] =>
    simp only [parseDay, Option.bind_eq_some_iff, digitVal_iff]
    constructor
    · rintro ⟨x, hx, h⟩
      split at h <;> cases h
      refine ⟨.inl ⟨by simp, hx⟩, by assumption, ?_⟩
      obtain ⟨h1, rfl⟩ := hx
      have := h1 a (by simp)
      simp; omega
    · rintro ⟨h | ⟨c, h, _⟩, h1, _⟩
      · exact ⟨n, h.2, by rw [if_pos h1]⟩
      · simp at h
  | [a, b] =>
    by_cases ha : a = ' '
    · subst ha
      simp only [parseDay, if_true, Option.bind_eq_some_iff, digitVal_iff]
      constructor
      · rintro ⟨x, hx, h⟩
        split at h <;> cases h
        refine ⟨.inr ⟨b, rfl, hx⟩, by assumption, ?_⟩
        obtain ⟨h1, rfl⟩ := hx
        have := h1 b (by simp)
        simp; omega
      · rintro ⟨⟨_, h⟩ | ⟨c, h, hn⟩, h1, _⟩
        · exact absurd h blank_numeral
        · injection h with _ h
          injection h with h
          subst h
          exact ⟨n, hn, by rw [if_pos h1]⟩
    · simp only [parseDay, if_neg ha, Option.bind_eq_some_iff, digitVal_iff, numeral_two]
      constructor
      · rintro ⟨x, hx, y, hy, h⟩
        split at h <;> cases h
        exact ⟨.inl ⟨by simp, ⟨x, y, hx, hy, rfl⟩⟩, by omega, by omega⟩
      · rintro ⟨⟨_, x, y, hx, hy, rfl⟩ | ⟨c, h, _⟩, h1, h2⟩
        · exact ⟨x, hx, y, hy, by rw [if_pos ⟨h1, h2⟩]⟩
        · injection h with h
          exact absurd h ha
  | _ :: _ :: _ :: _ => simp [parseDay]

theorem year_iff (s : Str) (n : Nat) : parseYear s = some n ↔ s.length = 4 ∧ Numeral s n := by
  match s with
  | [] | [_] | [_, _] | [_, _, _] => simp [parseYear]
  | [a, b, c, d] =>
    simp only [parseYear, Option.bind_eq_some_iff, digitVal_iff, numeral_four, List.length_cons, List.length_nil, true_and]
    constructor
    · rintro ⟨w, hw, x, hx, y, hy, z, hz, h⟩
      cases h
      exact ⟨w, x, y, z, hw, hx, hy, hz, rfl⟩
    · rintro ⟨w, x, y, z, hw, hx, hy, hz, rfl⟩
      exact ⟨w, hw, x, hx, y, hy, z, hz, rfl⟩
  | _ :: _ :: _ :: _ :: _ :: _ => simp [parseYear]

theorem cut_iff (s a r : Str) : cutSlash s = some (a, r) ↔ s = a ++ '/' :: r ∧ '/' ∉ a := by
  constructor
  · intro h
    induction s generalizing a with
    | nil => cases h
    | cons c s ih =>
      rw [cutSlash] at h
      split at h
      · next hc => cases h; exact ⟨by simp [hc], by simp⟩
      · next hc =>
        simp only [Option.map_eq_some_iff, Prod.exists, Prod.mk.injEq] at h
        obtain ⟨a', b', h, rfl, rfl⟩ := h
        obtain ⟨rfl, h2⟩ := ih _ h
        exact ⟨rfl, by simp [h2, eq_comm, hc]⟩
  · rintro ⟨rfl, h⟩
    exact cut_free r h

theorem numeral_free {s : Str} {n : Nat} (h : Numeral s n) : '/' ∉ s := fun hm => absurd (h.1 _ hm) (by decide)

end DateAux

/-- **C82**: exactly which texts CTOD takes, and for which day. -/
theorem C82_ctod_iff (s : Str) (d : Date) : ctod s = some d ↔ IsDate d ∧ TextOf s d := by
  constructor
  · intro h
    refine ⟨C82_ctod_valid s d h, ?_⟩
    unfold ctod at h
    simp only [Option.bind_eq_some_iff, Prod.exists, cut_iff, month_iff, day_iff, year_iff] at h
    obtain ⟨m, r, ⟨rfl, _⟩, dd, y, ⟨rfl, _⟩, mn, ⟨h1, h2, _⟩, dn, ⟨h3, _⟩, yn, ⟨h4, h5⟩, h⟩ := h
    unfold makeDate at h
    split at h <;> cases h
    exact ⟨m, dd, y, rfl, h1, h2, h3, h4, h5⟩
  · rintro ⟨hd, m, dd, y, rfl, h1, h2, h3, h4, h5⟩
    obtain ⟨a0, a1, a2, a3, a4, a5⟩ := hd
    rw [← daysIn_eq a2 a3] at a5
    have := daysIn_le d.year d.month
    have hfree : '/' ∉ dd := by
      rcases h3 with ⟨_, h3⟩ | ⟨c, rfl, h3⟩
      · exact numeral_free h3
      · have := numeral_free h3
        simp at this ⊢
        exact this
    have e1 := (month_iff m d.month).2 ⟨h1, h2, a2, a3⟩
    have e2 := (day_iff dd d.day).2 ⟨h3, a4, by omega⟩
    have e3 := (year_iff y d.year).2 ⟨h4, h5⟩
    simp only [ctod, cut_free _ (numeral_free h2), cut_free _ hfree, Option.bind_some, e1, e2, e3, makeDate]
    rw [if_pos ⟨a0, a1, a2, a3, a4, a5⟩]

example : ctod "1/ 9/2024".toList = some ⟨2024, 1, 9⟩ ∧ ctod "01/31/2024".toList = some ⟨2024, 1, 31⟩ := by decide +kernel

end Props
