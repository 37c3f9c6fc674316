import Verif.Model.Months
import Verif.Props.Dates
/-!
# GOMONTH (C99)
-/
namespace Props
open Model.Dates DateSpec DateAux

namespace MonthSpec

/-- The number of a month, counted from January of the year 0. -/
def monthNo (d : Date) : Int := 12 * (d.year : Int) + (d.month : Int) - 1

/-- Year and month of a number. -/
def yearOf (k : Int) : Int := k / 12
def monthOf (k : Int) : Nat := (k % 12 + 1).toNat

/-- The date with the given number of the month and the day, or the last day of the month if the month
is shorter. -/
def dateIn (k : Int) (day : Nat) : Date :=
  ⟨(yearOf k).toNat, monthOf k, min day (monthLength (yearOf k).toNat (monthOf k))⟩

/-- Not later. -/
def NotLater (a b : Date) : Prop := Earlier a b ∨ a = b

end MonthSpec
open MonthSpec

namespace MonthAux

theorem carry_fix (d : Date) (hm : 1 ≤ d.month ∧ d.month ≤ 12) (n : Int) :
    carry (d.year + (fixMonths n).1) (d.month + (fixMonths n).2) = (yearOf (monthNo d + n), (monthNo d + n) % 12 + 1) := by
  have key : 12 * (d.year + (fixMonths n).1) + (d.month + (fixMonths n).2) = 12 * (d.year : Int) + d.month + n ∧ (fixMonths n).2.natAbs ≤ 11 := by
    unfold fixMonths
    split
    · split <;> (simp only; omega)
    · simp only; omega
  unfold yearOf monthNo
  generalize d.year + (fixMonths n).1 = y at *
  have hb : (-10 : Int) ≤ d.month + (fixMonths n).2 ∧ d.month + (fixMonths n).2 ≤ 23 := by omega
  generalize (d.month : Int) + (fixMonths n).2 = m at *
  unfold carry
  split
  · ext <;> simp only <;> omega
  · split
    · ext <;> simp only <;> omega
    · ext <;> simp only <;> omega

theorem monthOf_range (k : Int) : 1 ≤ monthOf k ∧ monthOf k ≤ 12 := by unfold monthOf; omega

theorem monthLength_ge {y m : Nat} (h1 : 1 ≤ m) (h2 : m ≤ 12) : 28 ≤ monthLength y m := by
  rw [← daysIn_eq h1 h2]; unfold daysIn
  split
  · split <;> omega
  · split <;> omega

end MonthAux
open MonthAux

/-- C99: GOMONTH(d, n) is in the month that is `n` months later (earlier, if `n` is negative), on the same
day, or on the last day of that month if it is shorter; it is an error exactly if that month is in no year from 1
to 9999. -/
theorem C99_gomonth (d : Date) (hd : IsDate d) (n : Int) :
    gomonth d n = if 1 ≤ yearOf (monthNo d + n) ∧ yearOf (monthNo d + n) ≤ 9999 then some (dateIn (monthNo d + n) d.day) else none := by
  obtain ⟨h1, h2, h3, h4, h5, h6⟩ := hd
  unfold gomonth
  simp only [carry_fix d ⟨h3, h4⟩ n]
  have hm := monthOf_range (monthNo d + n)
  have hmd : ((monthNo d + n) % 12 + 1).toNat = monthOf (monthNo d + n) := rfl
  rw [hmd, daysIn_eq hm.1 hm.2]
  have h28 : 28 ≤ monthLength (yearOf (monthNo d + n)).toNat (monthOf (monthNo d + n)) := monthLength_ge hm.1 hm.2
  generalize hk : monthNo d + n = k at *
  by_cases hy : yearOf k < 1
  · rw [if_pos hy, if_neg (by omega)]
  · rw [if_neg hy]
    unfold makeDate
    by_cases hy2 : yearOf k ≤ 9999
    · rw [if_pos ⟨by omega, by omega, hm.1, hm.2, by omega, by rw [daysIn_eq hm.1 hm.2]; omega⟩, if_pos ⟨by omega, hy2⟩]
      simp [dateIn, Nat.min_comm]
    · rw [if_neg (by omega), if_neg (by omega)]

example : gomonth ⟨2024, 1, 31⟩ 1 = some ⟨2024, 2, 29⟩ ∧ gomonth ⟨2024, 1, 31⟩ (-2) = some ⟨2023, 11, 30⟩ ∧
    gomonth ⟨2024, 12, 5⟩ 25 = some ⟨2027, 1, 5⟩ ∧ gomonth ⟨1, 1, 1⟩ (-1) = none := by decide
example : dateIn (monthNo ⟨2024, 1, 31⟩ + -2) 31 = ⟨2023, 11, 30⟩ := by decide

/-- C99: the result is a day of the calendar. -/
theorem C99_valid (d e : Date) (hd : IsDate d) (n : Int) (h : gomonth d n = some e) : IsDate e := by
  rw [C99_gomonth d hd n] at h
  split at h
  · next hy =>
    cases h
    have hm := monthOf_range (monthNo d + n)
    have := monthLength_ge (y := (yearOf (monthNo d + n)).toNat) hm.1 hm.2
    obtain ⟨_, _, _, _, h5, _⟩ := hd
    exact ⟨by simp only [dateIn]; omega, by simp only [dateIn]; omega, hm.1, hm.2, by simp only [dateIn]; omega, Nat.min_le_right _ _⟩
  · cases h

example : IsDate ⟨2023, 2, 28⟩ := C99_valid ⟨2024, 2, 29⟩ ⟨2023, 2, 28⟩ (by decide) (-12) (by decide)

namespace MonthAux

theorem monthNo_dateIn {k : Int} (h : 1 ≤ yearOf k) (d : Nat) : monthNo (dateIn k d) = k := by
  unfold monthNo dateIn monthOf
  unfold yearOf at *
  simp only
  omega

end MonthAux

/-- C99: for a day that every month has, months may be added one after the other or at once. -/
theorem C99_compose (d e : Date) (hd : IsDate d) (m n : Int) (h : gomonth d m = some e) (h28 : d.day ≤ 28) :
    gomonth e n = gomonth d (m + n) := by
  have he := C99_valid d e hd m h
  rw [C99_gomonth e he, C99_gomonth d hd]
  rw [C99_gomonth d hd] at h
  split at h
  · next hy =>
    cases h
    have hm := monthOf_range (monthNo d + m)
    have h1 := monthLength_ge (y := (yearOf (monthNo d + m)).toNat) hm.1 hm.2
    rw [monthNo_dateIn hy.1, show (dateIn (monthNo d + m) d.day).day = d.day from by simp only [dateIn]; omega,
      show monthNo d + m + n = monthNo d + (m + n) from by omega]
  · cases h

example : gomonth ⟨2024, 3, 28⟩ (-1) = some ⟨2024, 2, 28⟩ ∧ gomonth ⟨2024, 2, 28⟩ 1 = gomonth ⟨2024, 3, 28⟩ (-1 + 1) :=
  ⟨by decide, C99_compose ⟨2024, 3, 28⟩ ⟨2024, 2, 28⟩ (by decide) (-1) 1 (by decide) (by decide)⟩

/-- C99: months that were added can be taken away again, for a day that every month has. -/
theorem C99_back (d e : Date) (hd : IsDate d) (n : Int) (h : gomonth d n = some e) (h28 : d.day ≤ 28) : gomonth e (-n) = some d := by
  rw [C99_compose d e hd n (-n) h h28, C99_gomonth d hd]
  obtain ⟨y, m, dd⟩ := d
  obtain ⟨h1, h2, h3, h4, h5, h6⟩ := hd
  simp only at h1 h2 h3 h4 h5 h6 h28
  have hy : yearOf (monthNo ⟨y, m, dd⟩ + (n + -n)) = y := by unfold yearOf monthNo; simp only; omega
  have hm : monthOf (monthNo ⟨y, m, dd⟩ + (n + -n)) = m := by unfold monthOf monthNo; simp only; omega
  rw [if_pos (by rw [hy]; omega)]
  unfold dateIn
  rw [hy, hm]
  simp only [Int.toNat_natCast, Option.some.injEq, Date.mk.injEq, true_and]
  omega

example : gomonth ⟨2025, 1, 15⟩ (-13) = some ⟨2023, 12, 15⟩ := C99_back ⟨2023, 12, 15⟩ ⟨2025, 1, 15⟩ (by decide) 13 (by decide) (by decide)

/-- C99, exactly: the months that were added can be taken away again if and only if the day stayed the same; otherwise the day
of the shorter month stays. -/
theorem C99_back_iff (d e : Date) (hd : IsDate d) (n : Int) (h : gomonth d n = some e) :
    gomonth e (-n) = some ⟨d.year, d.month, e.day⟩ ∧ (gomonth e (-n) = some d ↔ e.day = d.day) ∧ e.day ≤ d.day := by
  have he := C99_valid d e hd n h
  rw [C99_gomonth d hd] at h
  split at h
  · next hy =>
    cases h
    rw [C99_gomonth _ he, monthNo_dateIn hy.1]
    obtain ⟨y, m, dd⟩ := d
    obtain ⟨h1, h2, h3, h4, h5, h6⟩ := hd
    simp only at h1 h2 h3 h4 h5 h6
    have hy : yearOf (monthNo ⟨y, m, dd⟩ + n + -n) = y := by unfold yearOf monthNo; simp only; omega
    have hm : monthOf (monthNo ⟨y, m, dd⟩ + n + -n) = m := by unfold monthOf monthNo; simp only; omega
    have hle : (dateIn (monthNo ⟨y, m, dd⟩ + n) dd).day ≤ dd := by simp only [dateIn]; omega
    rw [if_pos (by rw [hy]; omega)]
    generalize (dateIn (monthNo ⟨y, m, dd⟩ + n) dd).day = x at hle ⊢
    unfold dateIn
    rw [hy, hm]
    simp only [Int.toNat_natCast, Option.some.injEq, Date.mk.injEq, true_and]
    omega
  · cases h

example : gomonth ⟨2023, 1, 31⟩ 1 = some ⟨2023, 2, 28⟩ ∧ gomonth ⟨2023, 2, 28⟩ (-1) = some ⟨2023, 1, 28⟩ :=
  ⟨by decide, (C99_back_iff ⟨2023, 1, 31⟩ ⟨2023, 2, 28⟩ (by decide) 1 (by decide)).1⟩

/-- C99: of two dates the one that is not later stays so. -/
theorem C99_order (a b a' b' : Date) (ha : IsDate a) (hb : IsDate b) (n : Int) (h : NotLater a b) (h1 : gomonth a n = some a')
    (h2 : gomonth b n = some b') : NotLater a' b' := by
  rcases h with h | rfl
  · rw [C99_gomonth a ha] at h1
    rw [C99_gomonth b hb] at h2
    split at h1
    · split at h2
      · next hya hyb =>
        cases h1; cases h2
        have hle : monthNo a < monthNo b ∨ monthNo a = monthNo b ∧ a.day < b.day := by
          obtain ⟨_, _, _, _, _, _⟩ := ha
          obtain ⟨_, _, _, _, _, _⟩ := hb
          unfold monthNo
          rcases h with h | ⟨h, h' | ⟨h', h''⟩⟩ <;> omega
        rcases hle with hlt | ⟨heq, hday⟩
        · refine Or.inl ?_
          unfold Earlier dateIn monthOf
          unfold yearOf at *
          simp only
          generalize monthNo a = x at *
          generalize monthNo b = y at *
          omega
        · rw [heq]
          unfold NotLater Earlier dateIn
          simp only [Nat.lt_irrefl, true_and, false_or, Date.mk.injEq]
          omega
      · cases h2
    · cases h1
  · rw [h1] at h2; cases h2; exact .inr rfl

example : NotLater ⟨2023, 2, 28⟩ ⟨2023, 2, 28⟩ :=
  C99_order ⟨2023, 1, 30⟩ ⟨2023, 1, 31⟩ ⟨2023, 2, 28⟩ ⟨2023, 2, 28⟩ (by decide) (by decide) 1 (.inl (.inr ⟨rfl, .inr ⟨rfl, by decide⟩⟩)) (by decide) (by decide)

end Props
