import Verif.Model.Clock
import Verif.Props.Dates
/-!
# The parts of dates and times, the clock and the times of files (C163)
-/
namespace Props
open Model.Dates DateSpec DateAux
open Model.Clock (Clock Val Part part time dtot seconds fdate ftime asText)

namespace ClockSpec

/-- A time of the day. -/
def IsClock (t : Clock) : Prop := t.hour < 24 ∧ t.minute < 60 ∧ t.second < 60 ∧ t.micro < 1000000

instance (t : Clock) : Decidable (IsClock t) := by unfold IsClock; infer_instance

/-- The day after a day. -/
inductive Next : Date → Date → Prop
  | day {y m d} : d < monthLength y m → Next ⟨y, m, d⟩ ⟨y, m, d + 1⟩
  | month {y m} : m < 12 → Next ⟨y, m, monthLength y m⟩ ⟨y, m + 1, 1⟩
  | year {y} : Next ⟨y, 12, 31⟩ ⟨y + 1, 1, 1⟩

/-- The days of the week. -/
def week : List String := ["Sunday", "Monday", "Tuesday", "Wednesday", "Thursday", "Friday", "Saturday"]

/-- The days of the week, counted from the first day of 2000, which was a Saturday; 0 is Sunday. -/
inductive DayOfWeek : Date → Nat → Prop
  | start : DayOfWeek ⟨2000, 1, 1⟩ 6
  | forth {d e k} : IsDate d → IsDate e → Next d e → DayOfWeek d k → DayOfWeek e ((k + 1) % 7)
  | back {d e k} : IsDate d → IsDate e → Next d e → DayOfWeek e k → DayOfWeek d ((k + 6) % 7)

/-- The months. -/
def months : List String :=
  ["January", "February", "March", "April", "May", "June", "July", "August", "September", "October", "November", "December"]

/-- Values with a day, and those with a time. -/
def dayOf : Val → Option Date
  | .date d | .datetime d _ => some d
  | _ => none

/-- The time of a value; a date stands for its midnight. -/
def clockOf : Val → Option Clock
  | .date _ => some ⟨0, 0, 0, 0⟩
  | .datetime _ t => some t
  | _ => none

/-- What the functions give in FoxPro for a date and for a date with a time. -/
def Wanted (v : Val) : Part → Val → Prop
  | .year, r => ∃ d, dayOf v = some d ∧ r = .num d.year
  | .month, r => ∃ d, dayOf v = some d ∧ r = .num d.month
  | .day, r => ∃ d, dayOf v = some d ∧ r = .num d.day
  | .hour, r => ∃ t, clockOf v = some t ∧ r = .num t.hour
  | .minute, r => ∃ t, clockOf v = some t ∧ r = .num t.minute
  | .sec, r => ∃ t, clockOf v = some t ∧ r = .num t.second
  | .cdow, r => ∃ d k s, dayOf v = some d ∧ DayOfWeek d k ∧ week[k]? = some s ∧ r = .text s.toList
  | .cmonth, r => ∃ d s, dayOf v = some d ∧ months[d.month - 1]? = some s ∧ r = .text s.toList

/-- A text of digits of the given length with its value. -/
def Fixed (w : Nat) (s : List Char) (n : Nat) : Prop := s.length = w ∧ Numeral s n

/-- Milliseconds since midnight. -/
def millis (t : Clock) : Nat := t.hour * 3600000 + t.minute * 60000 + t.second * 1000 + t.micro / 1000

end ClockSpec
open ClockSpec

namespace ClockAux
open Model.Clock

theorem isLeap_eq (y : Nat) : isLeap y = Leap y := by
  unfold isLeap Leap
  by_cases h4 : y % 4 = 0 <;> by_cases h100 : y % 100 = 0 <;> by_cases h400 : y % 400 = 0 <;>
    simp [h4, h100, h400, Nat.dvd_iff_mod_eq_zero] <;> omega

theorem beforeYear_succ {y : Nat} (h : 1 ≤ y) :
    daysBeforeYear (y + 1) = daysBeforeYear y + 365 + (if isLeap y then 1 else 0) := by
  unfold daysBeforeYear isLeap
  obtain ⟨z, rfl⟩ : ∃ z, y = z + 1 := ⟨y - 1, by omega⟩
  have a : (z + 1) / 4 = z / 4 + if (z + 1) % 4 = 0 then 1 else 0 := by split <;> omega
  have b : (z + 1) / 100 = z / 100 + if (z + 1) % 100 = 0 then 1 else 0 := by split <;> omega
  have c : (z + 1) / 400 = z / 400 + if (z + 1) % 400 = 0 then 1 else 0 := by split <;> omega
  have d : z / 100 ≤ z / 4 := by omega
  have e : (z + 1) % 100 = 0 → (z + 1) % 4 = 0 := by omega
  have f : (z + 1) % 400 = 0 → (z + 1) % 100 = 0 := by omega
  rw [Nat.add_sub_cancel, Nat.add_sub_cancel, a, b, c]
  clear a b c
  generalize z / 4 = z4 at *
  generalize z / 100 = z100 at *
  generalize z / 400 = z400 at *
  generalize (z + 1) % 4 = p, (z + 1) % 100 = q, (z + 1) % 400 = r at *
  by_cases h4 : p = 0
  · by_cases h100 : q = 0
    · by_cases h400 : r = 0
      · simp [h4, h100, h400]; omega
      · simp [h4, h100, h400]; omega
    · have h400 : r ≠ 0 := fun x => h100 (f x)
      simp [h4, h100, h400]; omega
  · have h100 : q ≠ 0 := fun x => h4 (e x)
    have h400 : r ≠ 0 := fun x => h100 (f x)
    simp [h4, h100, h400]; omega

theorem beforeMonth_succ {y m : Nat} (h1 : 1 ≤ m) (h2 : m < 12) :
    daysBeforeMonth y (m + 1) = daysBeforeMonth y m + monthLength y m := by
  unfold daysBeforeMonth monthLength
  rw [isLeap_eq]
  have : m = 1 ∨ m = 2 ∨ m = 3 ∨ m = 4 ∨ m = 5 ∨ m = 6 ∨ m = 7 ∨ m = 8 ∨ m = 9 ∨ m = 10 ∨ m = 11 := by omega
  rcases this with h | h | h | h | h | h | h | h | h | h | h <;> subst h <;> cases Leap y <;> rfl

theorem next_ordinal {d e : Date} (hd : IsDate d) (h : Next d e) : toordinal e = toordinal d + 1 := by
  obtain ⟨h1, -, h3, -, -, -⟩ := hd
  cases h with
  | day h => simp only [toordinal]; omega
  | month h => simp only [toordinal, beforeMonth_succ h3 h]; omega
  | @year y =>
    simp only [toordinal, beforeYear_succ h1]
    have a : daysBeforeMonth (y + 1) 1 = 0 := by simp [daysBeforeMonth]
    have b : daysBeforeMonth y 12 = 334 + if isLeap y then 1 else 0 := by simp [daysBeforeMonth]
    rw [a, b]
    omega

/-- The number of the day, Sunday being 0. -/
def number (d : Date) : Nat := toordinal d % 7

theorem number_of {d : Date} {k : Nat} (h : DayOfWeek d k) : number d = k := by
  induction h with
  | start => decide +kernel
  | forth hd he hn _ ih => subst ih; unfold number; rw [next_ordinal hd hn]; omega
  | back hd he hn _ ih => subst ih; unfold number; rw [next_ordinal hd hn]; omega

theorem length_pos {y m : Nat} (h1 : 1 ≤ m) (h2 : m ≤ 12) : 28 ≤ monthLength y m := by
  rw [← daysIn_eq h1 h2]; unfold daysIn
  split
  · split <;> omega
  · split <;> omega

/-- All days of a month once one day has a number. -/
theorem month_days {y m : Nat} (hy : 1 ≤ y ∧ y ≤ 9999) (h1 : 1 ≤ m) (h2 : m ≤ 12) :
    (∃ k, DayOfWeek ⟨y, m, 1⟩ k) → ∀ d, d + 1 ≤ monthLength y m → ∃ k, DayOfWeek ⟨y, m, d + 1⟩ k := by
  intro h d
  induction d with
  | zero => intro _; exact h
  | succ d ih =>
    intro hd
    obtain ⟨k, hk⟩ := ih (by omega)
    exact ⟨_, .forth (d := ⟨y, m, d + 1⟩) ⟨hy.1, hy.2, h1, h2, by simp, by show d + 1 ≤ monthLength y m; omega⟩
      ⟨hy.1, hy.2, h1, h2, by simp, hd⟩ (.day (by omega)) hk⟩

theorem month_back {y m : Nat} (hy : 1 ≤ y ∧ y ≤ 9999) (h1 : 1 ≤ m) (h2 : m ≤ 12) (n : Nat) :
    n < monthLength y m → (∃ k, DayOfWeek ⟨y, m, n + 1⟩ k) → ∃ k, DayOfWeek ⟨y, m, 1⟩ k := by
  induction n with
  | zero => intro _ h; exact h
  | succ n ih =>
    intro hn ⟨k, hk⟩
    exact ih (by omega) ⟨_, .back (e := ⟨y, m, n + 1 + 1⟩) ⟨hy.1, hy.2, h1, h2, by simp, by show n + 1 ≤ monthLength y m; omega⟩
      ⟨hy.1, hy.2, h1, h2, by simp, hn⟩ (.day (by omega)) hk⟩

theorem first_isDate {y m : Nat} (hy : 1 ≤ y ∧ y ≤ 9999) (h1 : 1 ≤ m) (h2 : m ≤ 12) : IsDate ⟨y, m, 1⟩ :=
  ⟨hy.1, hy.2, h1, h2, Nat.le_refl _, by have := length_pos (y := y) h1 h2; show 1 ≤ monthLength y m; omega⟩

theorem last_isDate {y m : Nat} (hy : 1 ≤ y ∧ y ≤ 9999) (h1 : 1 ≤ m) (h2 : m ≤ 12) : IsDate ⟨y, m, monthLength y m⟩ :=
  ⟨hy.1, hy.2, h1, h2, by have := length_pos (y := y) h1 h2; show 1 ≤ monthLength y m; omega, Nat.le_refl _⟩

theorem last_of_first {y m : Nat} (hy : 1 ≤ y ∧ y ≤ 9999) (h1 : 1 ≤ m) (h2 : m ≤ 12)
    (h : ∃ k, DayOfWeek ⟨y, m, 1⟩ k) : ∃ k, DayOfWeek ⟨y, m, monthLength y m⟩ k := by
  have hl := length_pos (y := y) h1 h2
  have := month_days hy h1 h2 h (monthLength y m - 1) (by omega)
  rwa [show monthLength y m - 1 + 1 = monthLength y m by omega] at this

theorem first_of_last {y m : Nat} (hy : 1 ≤ y ∧ y ≤ 9999) (h1 : 1 ≤ m) (h2 : m ≤ 12)
    (h : ∃ k, DayOfWeek ⟨y, m, monthLength y m⟩ k) : ∃ k, DayOfWeek ⟨y, m, 1⟩ k := by
  have hl := length_pos (y := y) h1 h2
  refine month_back hy h1 h2 (monthLength y m - 1) (by omega) ?_
  rwa [show monthLength y m - 1 + 1 = monthLength y m by omega]

theorem year_months {y : Nat} (hy : 1 ≤ y ∧ y ≤ 9999) (h : ∃ k, DayOfWeek ⟨y, 1, 1⟩ k) (n : Nat) :
    n < 12 → ∃ k, DayOfWeek ⟨y, n + 1, 1⟩ k := by
  induction n with
  | zero => intro _; exact h
  | succ n ih =>
    intro hn
    obtain ⟨k, hk⟩ := last_of_first hy (by omega) (by omega) (ih (by omega))
    exact ⟨_, .forth (last_isDate hy (by omega) (by omega)) (first_isDate hy (by omega) (by omega)) (.month (by omega)) hk⟩

theorem year_back {y : Nat} (hy : 1 ≤ y ∧ y ≤ 9999) (n : Nat) :
    n < 12 → (∃ k, DayOfWeek ⟨y, n + 1, 1⟩ k) → ∃ k, DayOfWeek ⟨y, 1, 1⟩ k := by
  induction n with
  | zero => intro _ h; exact h
  | succ n ih =>
    intro hn ⟨k, hk⟩
    exact ih (by omega) (first_of_last hy (by omega) (by omega)
      ⟨_, .back (last_isDate hy (by omega) (by omega)) (first_isDate hy (by omega) (by omega)) (.month (by omega)) hk⟩)

theorem december (y : Nat) : monthLength y 12 = 31 := rfl

theorem years_up (n : Nat) : 2000 + n ≤ 9999 → ∃ k, DayOfWeek ⟨2000 + n, 1, 1⟩ k := by
  induction n with
  | zero => intro _; exact ⟨6, .start⟩
  | succ n ih =>
    intro hn
    have hy : 1 ≤ 2000 + n ∧ 2000 + n ≤ 9999 := by omega
    obtain ⟨k, hk⟩ := last_of_first hy (by omega) (by omega) (year_months hy (ih (by omega)) 11 (by omega))
    exact ⟨_, .forth (last_isDate hy (by omega) (by omega)) (first_isDate (by omega) (by omega) (by omega)) .year hk⟩

theorem years_down (n : Nat) : n < 2000 → ∃ k, DayOfWeek ⟨2000 - n, 1, 1⟩ k := by
  induction n with
  | zero => intro _; exact ⟨6, .start⟩
  | succ n ih =>
    intro hn
    obtain ⟨k, hk⟩ := ih (by omega)
    rw [show 2000 - n = 2000 - (n + 1) + 1 by omega] at hk
    have hy : 1 ≤ 2000 - (n + 1) ∧ 2000 - (n + 1) ≤ 9999 := by omega
    exact year_back hy 11 (by omega) (first_of_last hy (by omega) (by omega)
      ⟨_, .back (last_isDate hy (by omega) (by omega)) (first_isDate (by omega) (by omega) (by omega)) .year hk⟩)

/-- Every day has a number. -/
theorem exists_day {d : Date} (hd : IsDate d) : ∃ k, DayOfWeek d k := by
  obtain ⟨y, m, n⟩ := d
  obtain ⟨h1, h2, h3, h4, h5, h6⟩ := hd
  simp only at h1 h2 h3 h4 h5 h6
  have hy : ∃ k, DayOfWeek ⟨y, 1, 1⟩ k := by
    by_cases h : 2000 ≤ y
    · have := years_up (y - 2000) (by omega)
      rwa [show 2000 + (y - 2000) = y by omega] at this
    · have := years_down (2000 - y) (by omega)
      rwa [show 2000 - (2000 - y) = y by omega] at this
  have hm := year_months ⟨h1, h2⟩ hy (m - 1) (by omega)
  rw [show m - 1 + 1 = m by omega] at hm
  have := month_days ⟨h1, h2⟩ h3 h4 hm (n - 1) (by omega)
  rwa [show n - 1 + 1 = n by omega] at this

theorem dayName_eq (d : Date) : ∃ s, week[number d]? = some s ∧ dayName d = s.toList := by
  unfold dayName weekday number
  have h : toordinal d % 7 < 7 := Nat.mod_lt _ (by omega)
  rw [show (toordinal d + 6) % 7 = (toordinal d % 7 + 6) % 7 by omega]
  generalize toordinal d % 7 = k at h
  match k, h with
  | 0, _ | 1, _ | 2, _ | 3, _ | 4, _ | 5, _ | 6, _ => exact ⟨_, rfl, rfl⟩

theorem monthName_eq {d : Date} (h1 : 1 ≤ d.month) (h2 : d.month ≤ 12) : ∃ s, months[d.month - 1]? = some s ∧ monthName d = s.toList := by
  unfold monthName
  have h : d.month - 1 < 12 := by omega
  generalize d.month - 1 = k at h
  match k, h with
  | 0, _ | 1, _ | 2, _ | 3, _ | 4, _ | 5, _ | 6, _ | 7, _ | 8, _ | 9, _ | 10, _ | 11, _ => exact ⟨_, rfl, rfl⟩

theorem fixed_two {n : Nat} (h : n < 100) : Fixed 2 (digits 2 n) n := by
  refine ⟨digits_length 2 n, ?_, ?_⟩
  · intro c hc
    simp only [two, List.mem_cons, List.not_mem_nil, or_false] at hc
    rcases hc with rfl | rfl <;> rw [digit_toNat] <;> omega
  · simp only [two, List.foldl, digit_toNat]; omega

end ClockAux
open ClockAux

/-- **C163**, for the part that holds: YEAR, MONTH, DAY, CDOW and CMONTH of a date, and these and HOUR, MINUTE and SEC of a date
with a time, have the values they have in FoxPro; CDOW is the name of the day of the week for all days of the calendar. -/
theorem C163_parts_partial (v : Val) (d : Date) (hv : dayOf v = some d) (hd : IsDate d) (p : Part)
    (h : (∃ e, v = .date e) → p ≠ .hour ∧ p ≠ .minute ∧ p ≠ .sec) : ∃ r, part p v = some r ∧ Wanted v p r := by
  have name : ∃ s, week[number d]? = some s ∧ Model.Clock.dayName d = s.toList := dayName_eq d
  obtain ⟨s, hs, hs'⟩ := name
  obtain ⟨m, hm, hm'⟩ := monthName_eq hd.2.2.1 hd.2.2.2.1
  obtain ⟨k, hk⟩ := exists_day hd
  rw [number_of hk] at hs
  cases v with
  | date e =>
    cases hv
    obtain ⟨a, b, c⟩ := h ⟨_, rfl⟩
    cases p with
    | year | month | day => exact ⟨_, rfl, _, rfl, rfl⟩
    | hour => exact absurd rfl a
    | minute => exact absurd rfl b
    | sec => exact absurd rfl c
    | cdow => exact ⟨_, rfl, _, _, _, rfl, hk, hs, congrArg _ hs'⟩
    | cmonth => exact ⟨_, rfl, _, _, rfl, hm, congrArg _ hm'⟩
  | datetime e t =>
    cases hv
    cases p with
    | year | month | day | hour | minute | sec => exact ⟨_, rfl, _, rfl, rfl⟩
    | cdow => exact ⟨_, rfl, _, _, _, rfl, hk, hs, congrArg _ hs'⟩
    | cmonth => exact ⟨_, rfl, _, _, rfl, hm, congrArg _ hm'⟩
  | time _ => cases hv
  | num _ => cases hv
  | text _ => cases hv

example : IsDate ⟨2024, 2, 29⟩ ∧ part .cdow (.datetime ⟨2024, 2, 29⟩ ⟨10, 5, 0, 0⟩) = some (.text "Thursday".toList) ∧
    part .cmonth (.date ⟨2024, 2, 29⟩) = some (.text "February".toList) ∧
    part .hour (.datetime ⟨2024, 2, 29⟩ ⟨10, 5, 0, 0⟩) = some (.num 10) := by decide +kernel

/-- C163: the day of the week is one only, so that the value of CDOW is determined. -/
theorem C163_day_unique (d : Date) (j k : Nat) (hj : DayOfWeek d j) (hk : DayOfWeek d k) : j = k :=
  (number_of hj).symm.trans (number_of hk)

example : DayOfWeek ⟨1999, 12, 31⟩ 5 :=
  .back (d := ⟨1999, 12, 31⟩) (by decide) (by decide) .year .start

/-- **C163** fails: HOUR, MINUTE and SEC of a date are errors; in FoxPro a date stands for its midnight and they are 0. -/
theorem C163_date_fails (d : Date) (p : Part) (h : p = .hour ∨ p = .minute ∨ p = .sec) :
    part p (.date d) = none ∧ Wanted (.date d) p (.num 0) := by
  rcases h with rfl | rfl | rfl <;> exact ⟨rfl, _, rfl, rfl⟩

example : (Part.minute = .hour ∨ Part.minute = .minute ∨ Part.minute = .sec) ∧ part .minute (.date ⟨2024, 2, 29⟩) = none := by
  decide

/-- C163: DTOT gives the midnight of its date: the parts of the day stay the same, and the parts of the time are 0. -/
theorem C163_dtot (d : Date) : ∃ v, dtot (.date d) = some v ∧ ∀ p r, Wanted (.date d) p r → Wanted v p r := by
  refine ⟨_, rfl, ?_⟩
  intro p r h
  cases p <;> exact h

example : dtot (.date ⟨2024, 2, 29⟩) = some (.datetime ⟨2024, 2, 29⟩ ⟨0, 0, 0, 0⟩) ∧ Wanted (.date ⟨2024, 2, 29⟩) .day (.num 29) :=
  ⟨rfl, _, rfl, rfl⟩

/-- C163: TIME() is the hour, the minute and the second with two digits each, separated by colons; TIME(n) has a point and
two digits for the hundredths of the second behind them. -/
theorem C163_time (t : Clock) (ht : IsClock t) :
    ∃ h m s c, Fixed 2 h t.hour ∧ Fixed 2 m t.minute ∧ Fixed 2 s t.second ∧ Fixed 2 c (t.micro / 10000) ∧
      time t false = .text (h ++ ':' :: m ++ ':' :: s) ∧ time t true = .text (h ++ ':' :: m ++ ':' :: s ++ '.' :: c) := by
  obtain ⟨h1, h2, h3, h4⟩ := ht
  refine ⟨_, _, _, _, fixed_two (by omega), fixed_two (by omega), fixed_two (by omega),
    fixed_two (n := t.micro / 10000) (by omega), rfl, ?_⟩
  simp only [time, Model.Clock.hms, if_true]
  simp [digits, Nat.div_div_eq_div_mul]

example : IsClock ⟨9, 5, 7, 120000⟩ ∧ time ⟨9, 5, 7, 120000⟩ true = .text "09:05:07.12".toList := by decide +kernel

/-- C163, exactly: SECONDS(), which tells the seconds since midnight to the millisecond in FoxPro, is the number of whole
seconds, and hence right if and only if no millisecond of the next second has passed. -/
theorem C163_seconds_iff (t : Clock) (ht : IsClock t) :
    (1000 * seconds t = millis t ↔ t.micro < 1000) ∧ 1000 * seconds t ≤ millis t ∧ millis t < 1000 * seconds t + 1000 := by
  obtain ⟨h1, h2, h3, h4⟩ := ht
  have e : seconds t = t.hour * 3600 + t.minute * 60 + t.second := by unfold seconds; omega
  rw [e]
  unfold millis
  omega

example : IsClock ⟨23, 59, 59, 999000⟩ ∧ seconds ⟨23, 59, 59, 999000⟩ = 86399 ∧ millis ⟨23, 59, 59, 999000⟩ = 86399999 := by
  decide

/-- C163: FDATE of a file is the date of its last change, or the date with the time if the second argument is 1; other second
arguments and missing files are errors. -/
theorem C163_fdate (changed : Option (Date × Clock)) (n : Int) (v : Val) :
    fdate changed n = some v ↔
      ∃ d t, changed = some (d, t) ∧ (n = 0 ∧ v = .date d ∨ n = 1 ∧ v = .datetime d t) := by
  unfold fdate
  by_cases h0 : n = 0
  · subst h0
    rcases changed with _ | ⟨d, t⟩ <;> simp [eq_comm]
  · by_cases h1 : n = 1
    · subst h1
      rcases changed with _ | ⟨d, t⟩
      · simp
      · constructor
        · intro h; exact ⟨d, t, rfl, .inr ⟨rfl, by simpa using h.symm⟩⟩
        · rintro ⟨d', t', e, ⟨h, -⟩ | ⟨-, rfl⟩⟩
          · simp at h
          · cases e; rfl
    · simp [h0, h1]

example : fdate (some (⟨2024, 2, 29⟩, ⟨10, 5, 0, 0⟩)) 1 = some (.datetime ⟨2024, 2, 29⟩ ⟨10, 5, 0, 0⟩) := by decide

/-- **C163** fails: FTIME, which is the text of the time in FoxPro, is an object for every file, never a text; TIME at the
moment of the change is that text. -/
theorem C163_ftime_fails (d : Date) (t : Clock) :
    ftime (some (d, t)) = some (.time t) ∧ (∀ s, ftime (some (d, t)) ≠ some (.text s)) ∧ ∃ s, time t false = .text s :=
  ⟨rfl, fun _ => nofun, _, rfl⟩

example : ftime (some (⟨2024, 2, 29⟩, ⟨10, 5, 0, 0⟩)) = some (.time ⟨10, 5, 0, 0⟩) := by decide

/-- **C163** fails: DTOC and DTOS of a date with a time, which are the texts of the date alone in FoxPro, have the eight or
six characters of the time behind them. -/
theorem C163_text_fails (d : Date) (t : Clock) (w : Bool) : ∃ a b,
    asText w (.date d) = some (.text a) ∧ asText w (.datetime d t) = some (.text (a ++ b)) ∧
      b.length = if w then 6 else 8 := by
  cases w
  · refine ⟨dtoc ⟨d, none⟩, digits 2 t.hour ++ ':' :: digits 2 t.minute ++ ':' :: digits 2 t.second, rfl, ?_, ?_⟩
    · simp [asText, Model.Clock.moment, dtoc]
    · simp [digits_length]
  · refine ⟨dtos ⟨d, none⟩, digits 2 t.hour ++ digits 2 t.minute ++ digits 2 t.second, rfl, ?_, ?_⟩
    · simp [asText, Model.Clock.moment, dtos]
    · simp [digits_length]

example : asText true (.datetime ⟨2024, 2, 29⟩ ⟨10, 5, 0, 0⟩) = some (.text "20240229100500".toList) ∧
    asText true (.date ⟨2024, 2, 29⟩) = some (.text "20240229".toList) := by decide +kernel

end Props
