import Verif.Model.FxpDates
/-!
# C139: dates and times in compiled programs

A date is stored as its Julian day number (2440588 is 1 January 1970), a time of day as the part of the day that has passed.
-/
namespace Props
open Model.FxpDates Model.Dates

namespace FxpDatesSpec

def leapYear (y : Nat) : Bool := y % 4 = 0 && (y % 100 ≠ 0 || y % 400 = 0)

def monthLength (y m : Nat) : Nat :=
  if m = 2 then (if leapYear y then 29 else 28) else if m = 4 ∨ m = 6 ∨ m = 9 ∨ m = 11 then 30 else 31

/-- The dates of the calendar. -/
def IsDate (d : Date) : Prop := 1 ≤ d.year ∧ 1 ≤ d.month ∧ d.month ≤ 12 ∧ 1 ≤ d.day ∧ d.day ≤ monthLength d.year d.month

/-- The day after a day. -/
def next (d : Date) : Date :=
  if d.day < monthLength d.year d.month then { d with day := d.day + 1 }
  else if d.month < 12 then ⟨d.year, d.month + 1, 1⟩
  else ⟨d.year + 1, 1, 1⟩

/-- The day `k` days after a day. -/
def after (d : Date) : Nat → Date
  | 0 => d
  | k + 1 => next (after d k)

/-- Day number `n` is the date `d`: counted from 1 January of the year 1, which is 1721426. -/
def IsDayNumber (n : Nat) (d : Date) : Prop := 1721426 ≤ n ∧ d = after ⟨1, 1, 1⟩ (n - 1721426)

def IsTime (t : Time) : Prop := t.hour < 24 ∧ t.minute < 60 ∧ t.second < 60

def secondOfDay (t : Time) : Nat := 3600 * t.hour + 60 * t.minute + t.second

/-- The value in the file is that of the moment up to less than half a second. -/
def Near (m : Int) (n : Nat) (t : Time) : Prop :=
  let s : Int := 86400 * ((n : Int) - 2440588) + secondOfDay t
  1000000 * s - 500000 < m ∧ m < 1000000 * s + 500000

/-- Reading two or four digits. -/
def number (s : Str) : Option Nat :=
  if s.all Char.isDigit then some (s.foldl (fun n c => 10 * n + (c.toNat - 48)) 0) else none

/-- What FoxPro takes `{^yyyy-mm-dd}` and `{^yyyy-mm-dd hh:mm:ss}` for. -/
def foxDate : Str → Option Moment
  | ['{', '^', a, b, c, d, '-', e, f, '-', g, h, '}'] => do
    some ⟨⟨← number [a, b, c, d], ← number [e, f], ← number [g, h]⟩, none⟩
  | ['{', '^', a, b, c, d, '-', e, f, '-', g, h, ' ', i, j, ':', k, l, ':', m, n, '}'] => do
    some ⟨⟨← number [a, b, c, d], ← number [e, f], ← number [g, h]⟩, some ⟨← number [i, j], ← number [k, l], ← number [m, n]⟩⟩
  | _ => none

/-- What FoxPro takes `{ / / }` and `{ / / : : }` for: the empty date and the empty date and time. -/
inductive Blank where
  | date
  | datetime
  deriving DecidableEq

/-- Braces with blanks, two slashes, and colons or not. -/
def foxBlank (s : Str) : Option Blank :=
  let marks := s.filter (· ≠ ' ')
  if marks = ['{', '/', '/', '}'] then some .date
  else if marks = ['{', '/', '/', ':', '}'] ∨ marks = ['{', '/', '/', ':', ':', '}'] then some .datetime
  else none

end FxpDatesSpec
open FxpDatesSpec

namespace FxpDatesAux

/-- Days of a year before a month. -/
def before (leap : Bool) (m : Nat) : Nat := daysBefore m + if m > 2 ∧ leap = true then 1 else 0

/-- Days before a year. -/
def beforeYear (y : Nat) : Nat := (y - 1) * 365 + (y - 1) / 4 - (y - 1) / 100 + (y - 1) / 400

def ordinal (d : Date) : Nat := beforeYear d.year + before (leapYear d.year) d.month + d.day

def len (leap : Bool) (m : Nat) : Nat :=
  if m = 2 then (if leap then 29 else 28) else if m = 4 ∨ m = 6 ∨ m = 9 ∨ m = 11 then 30 else 31

theorem monthDay_all : ∀ leap : Bool, ∀ m : Fin 13, ∀ d : Fin 32, 1 ≤ m.val → 1 ≤ d.val → d.val ≤ len leap m.val →
    monthDay leap (before leap m.val + d.val - 1) = (m.val, d.val) := by decide +kernel

theorem monthDay_before (leap : Bool) (m d : Nat) (h1 : 1 ≤ m) (h2 : m ≤ 12) (h3 : 1 ≤ d) (h4 : d ≤ len leap m) :
    monthDay leap (before leap m + d - 1) = (m, d) := by
  have : len leap m ≤ 31 := by unfold len; split <;> (try split) <;> omega
  exact monthDay_all leap ⟨m, by omega⟩ ⟨d, by omega⟩ h1 h3 h4

theorem before_range : ∀ leap : Bool, ∀ m : Fin 13, 1 ≤ m.val → before leap m.val + len leap m.val ≤ (if leap then 366 else 365) := by
  decide +kernel

theorem before_next : ∀ leap : Bool, ∀ m : Fin 12, 1 ≤ m.val → before leap (m.val + 1) = before leap m.val + len leap m.val := by
  decide +kernel

theorem before_december (leap : Bool) : before leap 12 + len leap 12 = if leap then 366 else 365 := by cases leap <;> decide

theorem before_last (m d : Nat) (h1 : 1 ≤ m) (h2 : m ≤ 12) (h3 : 1 ≤ d) (h4 : d ≤ len true m) (h : before true m + d = 366) :
    m = 12 ∧ d = 31 := by
  have key : ∀ m : Fin 13, ∀ d : Fin 32, 1 ≤ m.val → 1 ≤ d.val → d.val ≤ len true m.val → before true m.val + d.val = 366 →
      m.val = 12 ∧ d.val = 31 := by decide +kernel
  have : len true m ≤ 31 := by unfold len; split <;> (try split) <;> omega
  exact key ⟨m, by omega⟩ ⟨d, by omega⟩ h1 h3 h4 h

theorem leap_iff (a b c e : Nat) (hb : b ≤ 3) (hc : c ≤ 24) (he : e ≤ 3) :
    leapYear (400 * a + 100 * b + 4 * c + e + 1) = decide (e = 3 ∧ (c ≠ 24 ∨ b = 3)) := by
  unfold leapYear
  rw [Bool.eq_iff_iff]
  simp only [Bool.and_eq_true, Bool.or_eq_true, decide_eq_true_eq]
  omega

theorem beforeYear_eq (a b c e : Nat) (hb : b ≤ 3) (hc : c ≤ 24) (he : e ≤ 3) :
    beforeYear (400 * a + 100 * b + 4 * c + e + 1) = 146097 * a + 36524 * b + 1461 * c + 365 * e := by
  unfold beforeYear
  have e1 : (400 * a + 100 * b + 4 * c + e + 1 - 1) / 4 = 100 * a + 25 * b + c := by omega
  have e2 : (400 * a + 100 * b + 4 * c + e + 1 - 1) / 100 = 4 * a + b := by omega
  have e3 : (400 * a + 100 * b + 4 * c + e + 1 - 1) / 400 = a := by omega
  rw [e1, e2, e3]
  omega

theorem year_parts (y : Nat) (hy : 1 ≤ y) : ∃ a b c e, b ≤ 3 ∧ c ≤ 24 ∧ e ≤ 3 ∧ y = 400 * a + 100 * b + 4 * c + e + 1 :=
  ⟨(y - 1) / 400, (y - 1) % 400 / 100, (y - 1) % 100 / 4, (y - 1) % 4, by omega, by omega, by omega, by omega⟩

theorem beforeYear_succ (y : Nat) (hy : 1 ≤ y) : beforeYear (y + 1) = beforeYear y + if leapYear y then 366 else 365 := by
  obtain ⟨a, b, c, e, hb, hc, he, rfl⟩ := year_parts y hy
  rw [leap_iff a b c e hb hc he, beforeYear_eq a b c e hb hc he]
  by_cases h3 : e = 3
  · subst h3
    by_cases h24 : c = 24
    · subst h24
      by_cases hb3 : b = 3
      · subst hb3
        have := beforeYear_eq (a + 1) 0 0 0 (by decide) (by decide) (by decide)
        rw [show 400 * a + 100 * 3 + 4 * 24 + 3 + 1 + 1 = 400 * (a + 1) + 100 * 0 + 4 * 0 + 0 + 1 by omega, this]
        simp
        omega
      · have := beforeYear_eq a (b + 1) 0 0 (by omega) (by decide) (by decide)
        rw [show 400 * a + 100 * b + 4 * 24 + 3 + 1 + 1 = 400 * a + 100 * (b + 1) + 4 * 0 + 0 + 1 by omega, this]
        simp [hb3]
        omega
    · have := beforeYear_eq a b (c + 1) 0 hb (by omega) (by decide)
      rw [show 400 * a + 100 * b + 4 * c + 3 + 1 + 1 = 400 * a + 100 * b + 4 * (c + 1) + 0 + 1 by omega, this]
      simp [h24]
      omega
  · have := beforeYear_eq a b c (e + 1) hb hc (by omega)
    rw [show 400 * a + 100 * b + 4 * c + e + 1 + 1 = 400 * a + 100 * b + 4 * c + (e + 1) + 1 by omega, this]
    simp [h3]
    omega

/-- `_ord2ymd` gives the date back. -/
theorem ord_round (d : Date) (hd : IsDate d) : ord2ymd (ordinal d) = d := by
  obtain ⟨y, m, day⟩ := d
  obtain ⟨hy, hm1, hm2, hd1, hd2⟩ := hd
  simp only at hy hm1 hm2 hd1 hd2
  obtain ⟨a, b, c, e, hb, hc, he, rfl⟩ := year_parts y hy
  have hleap := leap_iff a b c e hb hc he
  have hlen : monthLength (400 * a + 100 * b + 4 * c + e + 1) m = len (leapYear (400 * a + 100 * b + 4 * c + e + 1)) m := rfl
  rw [hlen] at hd2
  generalize hl : leapYear (400 * a + 100 * b + 4 * c + e + 1) = leap at hleap hd2
  have hk := before_range leap ⟨m, by omega⟩ hm1
  simp only at hk
  have hmd := monthDay_before leap m day hm1 hm2 hd1 hd2
  have hord : ordinal ⟨400 * a + 100 * b + 4 * c + e + 1, m, day⟩ - 1 =
      146097 * a + (36524 * b + (1461 * c + (365 * e + (before leap m + day - 1)))) := by
    unfold ordinal
    simp only [hl]
    rw [beforeYear_eq a b c e hb hc he]
    omega
  unfold ord2ymd
  rw [hord]
  generalize hkk : before leap m + day - 1 = k at hmd
  have hk2 : k < (if leap then 366 else 365) := by split at hk <;> simp_all <;> omega
  by_cases hlast : leap = true ∧ k = 365
  · obtain ⟨hlt, rfl⟩ := hlast
    subst hlt
    have := before_last m day hm1 hm2 hd1 hd2 (by omega)
    obtain ⟨rfl, rfl⟩ := this
    have hcond : e = 3 ∧ (c ≠ 24 ∨ b = 3) := by simpa using hleap.symm
    obtain ⟨rfl, hcb⟩ := hcond
    clear hmd hkk hk hk2 hd2 hd1 hm1 hm2 hl hord hlen hleap
    have e1 : (146097 * a + (36524 * b + (1461 * c + (365 * 3 + 365)))) / 146097 = a := by omega
    have e2 : (146097 * a + (36524 * b + (1461 * c + (365 * 3 + 365)))) % 146097 = 36524 * b + (1461 * c + (365 * 3 + 365)) := by omega
    simp only [e1, e2]
    clear e1 e2
    by_cases hend : c = 24
    · have hb3 : b = 3 := by omega
      subst hend; subst hb3
      simp
      omega
    · have e3 : (36524 * b + (1461 * c + (365 * 3 + 365))) / 36524 = b := by omega
      have e4 : (36524 * b + (1461 * c + (365 * 3 + 365))) % 36524 = 1461 * c + (365 * 3 + 365) := by omega
      have e5 : (1461 * c + (365 * 3 + 365)) / 1461 = c := by clear e3 e4; omega
      have e6 : (1461 * c + (365 * 3 + 365)) % 1461 = 1460 := by clear e3 e4 e5; omega
      simp only [e3, e4, e5, e6]
      simp
      omega
  · have hk3 : k < 365 := by
      cases leap with
      | true => simp at hk2 hlast; omega
      | false => simpa using hk2
    have e1 : (146097 * a + (36524 * b + (1461 * c + (365 * e + k)))) / 146097 = a := by omega
    have e2 : (146097 * a + (36524 * b + (1461 * c + (365 * e + k)))) % 146097 = 36524 * b + (1461 * c + (365 * e + k)) := by omega
    have e3 : (36524 * b + (1461 * c + (365 * e + k))) / 36524 = b := by omega
    have e4 : (36524 * b + (1461 * c + (365 * e + k))) % 36524 = 1461 * c + (365 * e + k) := by omega
    have e5 : (1461 * c + (365 * e + k)) / 1461 = c := by omega
    have e6 : (1461 * c + (365 * e + k)) % 1461 = 365 * e + k := by omega
    have e7 : (365 * e + k) / 365 = e := by omega
    have e8 : (365 * e + k) % 365 = k := by omega
    simp only [e1, e2, e3, e4, e5, e6, e7, e8]
    rw [if_neg (by omega), ← hleap, hmd]
    simp only [Date.mk.injEq, and_true, true_and]
    omega

theorem next_ord (d : Date) (hd : IsDate d) : IsDate (next d) ∧ ordinal (next d) = ordinal d + 1 := by
  obtain ⟨y, m, day⟩ := d
  obtain ⟨hy, hm1, hm2, hd1, hd2⟩ := hd
  simp only at hy hm1 hm2 hd1 hd2
  have hlen : monthLength y m = len (leapYear y) m := rfl
  unfold next
  simp only
  split
  · next h => exact ⟨⟨hy, hm1, hm2, by simp, h⟩, by simp [ordinal]; omega⟩
  · next h =>
    have hday : day = monthLength y m := by omega
    split
    · next h12 =>
      refine ⟨⟨hy, by simp, by simp only; omega, by simp, ?_⟩, ?_⟩
      · simp only [monthLength]; split <;> (try split) <;> omega
      · have := before_next (leapYear y) ⟨m, h12⟩ hm1
        simp only at this
        simp only [ordinal]
        rw [this, hday, hlen]
        omega
    · next h12 =>
      have hm : m = 12 := by omega
      subst hm
      refine ⟨⟨by simp, by simp, by simp, by simp, by simp [monthLength]⟩, ?_⟩
      have h1 := before_december (leapYear y)
      have h2 : before (leapYear (y + 1)) 1 = 0 := by simp [before, daysBefore]
      have h3 : beforeYear (y + 1) = beforeYear y + if leapYear y then 366 else 365 := by
        exact beforeYear_succ y hy
      simp only [ordinal]
      rw [h2, h3, hday, hlen, ← h1]
      omega

theorem after_ord (k : Nat) : IsDate (after ⟨1, 1, 1⟩ k) ∧ ordinal (after ⟨1, 1, 1⟩ k) = k + 1 := by
  induction k with
  | zero => exact ⟨⟨by decide, by decide, by decide, by decide, by decide⟩, by decide⟩
  | succ k ih =>
    have := next_ord _ ih.1
    exact ⟨this.1, by rw [after, this.2, ih.2]⟩

theorem ord_after (k : Nat) : ord2ymd (k + 1) = after ⟨1, 1, 1⟩ k := by
  rw [← (after_ord k).2]
  exact ord_round _ (after_ord k).1

theorem dayNumber (n : Nat) (d : Date) (hn : IsDayNumber n d) : ∃ k, n = k + 1721426 ∧ d = after ⟨1, 1, 1⟩ k :=
  ⟨n - 1721426, (Nat.sub_add_cancel hn.1).symm, hn.2⟩

theorem round_near (m s : Int) (h1 : 1000000 * s - 500000 < m) (h2 : m < 1000000 * s + 500000) : roundSeconds m = s := by
  unfold roundSeconds
  simp only
  split
  · omega
  · split
    · omega
    · split <;> omega

theorem fromEpoch_near (n : Nat) (d : Date) (t : Time) (hn : IsDayNumber n d) (ht : IsTime t) (hmax : n ≤ 5373484) :
    fromEpoch (86400 * ((n : Int) - 2440588) + secondOfDay t) = some ⟨d, some t⟩ := by
  obtain ⟨k, hk, hdef⟩ := dayNumber n d hn
  clear hn
  subst hdef
  obtain ⟨hh, hm, hs⟩ := ht
  obtain ⟨H, M, S⟩ := t
  simp only at hh hm hs
  have hsec : secondOfDay ⟨H, M, S⟩ < 86400 := by simp only [secondOfDay]; omega
  generalize hv : secondOfDay ⟨H, M, S⟩ = v at hsec
  have e1 : (86400 * ((n : Int) - 2440588) + v) / 86400 = (n : Int) - 2440588 := by omega
  have e2 : ((86400 * ((n : Int) - 2440588) + v) % 86400).toNat = v := by omega
  unfold fromEpoch
  simp only [e1, e2]
  rw [if_pos (by omega)]
  have e3 : (719163 + ((n : Int) - 2440588)).toNat = k + 1 := by omega
  rw [e3, ord_after]
  simp only [secondOfDay] at hv
  have e4 : (⟨v / 3600, v / 60 % 60, v % 60⟩ : Time) = ⟨H, M, S⟩ := by
    simp only [Time.mk.injEq]
    clear e1 e2 e3
    omega
  rw [e4]

theorem year_le (k : Nat) (h : k ≤ 3652058) : (after ⟨1, 1, 1⟩ k).year ≤ 9999 := by
  obtain ⟨hd, ho⟩ := after_ord k
  generalize after ⟨1, 1, 1⟩ k = d at hd ho
  by_cases hy : d.year ≤ 9999
  · exact hy
  · exfalso
    have := hd.2.2.2.1
    unfold ordinal beforeYear at ho
    omega

theorem number_digits2 (a : Nat) (h : a < 100) : number (digits 2 a) = some a := by
  have key : ∀ a : Fin 100, number (digits 2 a.val) = some a.val := by decide +kernel
  exact key ⟨a, h⟩

theorem digit_val (n : Nat) : (digit n).isDigit = true ∧ (digit n).toNat - 48 = n % 10 := by
  have key : ∀ a : Fin 10, (Char.ofNat (48 + a.val)).isDigit = true ∧ (Char.ofNat (48 + a.val)).toNat - 48 = a.val := by decide +kernel
  exact key ⟨n % 10, Nat.mod_lt _ (by decide)⟩

theorem number_digits4 (a : Nat) (h : a < 10000) : number (digits 4 a) = some a := by
  have e : digits 4 a = [digit (a / 10 / 10 / 10), digit (a / 10 / 10), digit (a / 10), digit a] := rfl
  rw [e]
  unfold number
  rw [if_pos (by simp [digit_val])]
  simp only [List.foldl_cons, List.foldl_nil, digit_val]
  congr 1
  omega

theorem fox_date (d : Date) (hy : d.year < 10000) (hm : d.month < 100) (hd : d.day < 100) :
    foxDate (braces (dateText d)) = some ⟨d, none⟩ := by
  have e : braces (dateText d) = ['{', '^', digit (d.year / 10 / 10 / 10), digit (d.year / 10 / 10), digit (d.year / 10), digit d.year,
      '-', digit (d.month / 10), digit d.month, '-', digit (d.day / 10), digit d.day, '}'] := rfl
  have h1 : number [digit (d.year / 10 / 10 / 10), digit (d.year / 10 / 10), digit (d.year / 10), digit d.year] = some d.year :=
    number_digits4 _ hy
  have h2 : number [digit (d.month / 10), digit d.month] = some d.month := number_digits2 _ hm
  have h3 : number [digit (d.day / 10), digit d.day] = some d.day := number_digits2 _ hd
  rw [e]
  simp only [foxDate, h1, h2, h3]
  rfl

theorem fox_datetime (d : Date) (t : Time) (hy : d.year < 10000) (hm : d.month < 100) (hd : d.day < 100) (ht : IsTime t) :
    foxDate (braces (dateText d ++ ' ' :: timeText t)) = some ⟨d, some t⟩ := by
  have e : braces (dateText d ++ ' ' :: timeText t) = ['{', '^', digit (d.year / 10 / 10 / 10), digit (d.year / 10 / 10),
      digit (d.year / 10), digit d.year,
      '-', digit (d.month / 10), digit d.month, '-', digit (d.day / 10), digit d.day, ' ',
      digit (t.hour / 10), digit t.hour, ':', digit (t.minute / 10), digit t.minute, ':', digit (t.second / 10), digit t.second, '}'] := rfl
  have h1 : number [digit (d.year / 10 / 10 / 10), digit (d.year / 10 / 10), digit (d.year / 10), digit d.year] = some d.year :=
    number_digits4 _ hy
  have h2 : number [digit (d.month / 10), digit d.month] = some d.month := number_digits2 _ hm
  have h3 : number [digit (d.day / 10), digit d.day] = some d.day := number_digits2 _ hd
  have h4 : number [digit (t.hour / 10), digit t.hour] = some t.hour := number_digits2 _ (by have := ht.1; omega)
  have h5 : number [digit (t.minute / 10), digit t.minute] = some t.minute := number_digits2 _ (by have := ht.2.1; omega)
  have h6 : number [digit (t.second / 10), digit t.second] = some t.second := number_digits2 _ (by have := ht.2.2; omega)
  rw [e]
  simp only [foxDate, h1, h2, h3, h4, h5, h6]
  rfl

theorem small (n : Nat) (d : Date) (hn : IsDayNumber n d) (hmax : n ≤ 5373484) : d.year < 10000 ∧ d.month < 100 ∧ d.day < 100 := by
  obtain ⟨k, hk, hdef⟩ := dayNumber n d hn
  clear hn
  subst hdef
  have hy := year_le k (by omega)
  obtain ⟨hd, _⟩ := after_ord k
  obtain ⟨_, _, hm, _, hday⟩ := hd
  have : monthLength (after ⟨1, 1, 1⟩ k).year (after ⟨1, 1, 1⟩ k).month ≤ 31 := by
    unfold monthLength; split <;> (try split) <;> omega
  omega

end FxpDatesAux
open FxpDatesAux

/-- The day number of 1 January 1970 is the one that the program counts from. -/
example : ord2ymd 719163 = ⟨1970, 1, 1⟩ ∧ 719163 + 1721425 = 2440588 := by decide +kernel

/-- **C139**: a date and time of the calendar up to the year 9999, stored with an error of less than half a second, is printed as a
constant that FoxPro takes for the same date and time. -/
theorem C139_datetime (n : Nat) (d : Date) (t : Time) (hn : IsDayNumber n d) (hmax : n ≤ 5373484) (ht : IsTime t) (m : Int) (hm : Near m n t) :
    ∃ text, readDatetime (.micro m) = some text ∧ foxDate text = some ⟨d, some t⟩ := by
  have hr := round_near m _ hm.1 hm.2
  obtain ⟨h1, h2, h3⟩ := small n d hn hmax
  refine ⟨braces (dateText d ++ ' ' :: timeText t), ?_, fox_datetime d t h1 h2 h3 ht⟩
  rw [readDatetime, hr, fromEpoch_near n d t hn ht hmax]
  rfl

/-- 2460311.5 (with an error of some microseconds) is noon of 1 January 2024. -/
example : readDatetime (.micro (1000000 * (86400 * (2460311 - 2440588) + 43200) + 17)) = some "{^2024-01-01 12:00:00}".toList ∧
    foxDate "{^2024-01-01 12:00:00}".toList = some ⟨⟨2024, 1, 1⟩, some ⟨12, 0, 0⟩⟩ := by decide +kernel

/-- **C139**: a date of the calendar up to the year 9999 is printed as a constant that FoxPro takes for the same date. -/
theorem C139_date (n : Nat) (d : Date) (hn : IsDayNumber n d) (hmax : n ≤ 5373484) (m : Int) (hm : Near m n ⟨0, 0, 0⟩) :
    ∃ text, readDate (.micro m) = some text ∧ foxDate text = some ⟨d, none⟩ := by
  have hr := round_near m _ hm.1 hm.2
  obtain ⟨h1, h2, h3⟩ := small n d hn hmax
  refine ⟨braces (dateText d), ?_, fox_date d h1 h2 h3⟩
  rw [readDate, hr, fromEpoch_near n d ⟨0, 0, 0⟩ hn ⟨by decide, by decide, by decide⟩ hmax]
  rfl

example : readDate (.micro (1000000 * 86400 * (2451604 - 2440588))) = some "{^2000-02-29}".toList ∧ next ⟨2000, 2, 29⟩ = ⟨2000, 3, 1⟩ ∧
    next ⟨1900, 2, 28⟩ = ⟨1900, 3, 1⟩ := by decide +kernel

/-- **C139**: different days are printed differently. -/
theorem C139_distinct (n n' : Nat) (d d' : Date) (hn : IsDayNumber n d) (hn' : IsDayNumber n' d') (hmax : n ≤ 5373484) (hmax' : n' ≤ 5373484)
    (m m' : Int) (hm : Near m n ⟨0, 0, 0⟩) (hm' : Near m' n' ⟨0, 0, 0⟩) (h : readDate (.micro m) = readDate (.micro m')) : n = n' := by
  obtain ⟨t1, a1, a2⟩ := C139_date n d hn hmax m hm
  obtain ⟨t2, b1, b2⟩ := C139_date n' d' hn' hmax' m' hm'
  have ht : t1 = t2 := by rw [a1, b1] at h; exact Option.some.inj h
  rw [ht, b2] at a2
  have hd : d' = d := by simpa using a2
  obtain ⟨k, hk, hdef⟩ := dayNumber n d hn
  clear hn
  subst hdef
  obtain ⟨k', hk', hdef'⟩ := dayNumber n' d' hn'
  clear hn'
  subst hdef'
  have := congrArg ordinal hd
  rw [(after_ord _).2, (after_ord _).2] at this
  omega

example : IsDayNumber 1721457 ⟨1, 2, 1⟩ := ⟨by decide, by decide +kernel⟩

/-- **C139**: the empty date is printed as the empty date. -/
theorem C139_empty_date : ∃ text, readDate .zero = some text ∧ foxBlank text = some .date := ⟨_, rfl, by decide⟩

/-- **C139** fails for the empty date and time: it is printed as the empty date, and so as a value of another type. -/
theorem C139_empty_datetime_fails : ∃ text, readDatetime .zero = some text ∧ foxBlank text = some .date ∧
    readDate .zero = some text := ⟨_, rfl, by decide, rfl⟩

/-- The empty date and time in FoxPro. -/
example : foxBlank "{ / / : : }".toList = some .datetime ∧ foxBlank "{  /  /  }".toList = some .date := by decide

/-- **C139**: no date of the calendar is printed as the empty date. -/
theorem C139_not_empty (n : Nat) (d : Date) (hn : IsDayNumber n d) (hmax : n ≤ 5373484) (m : Int) (hm : Near m n ⟨0, 0, 0⟩) :
    readDate (.micro m) ≠ readDate .zero := by
  obtain ⟨text, h1, h2⟩ := C139_date n d hn hmax m hm
  rw [h1]
  intro h
  have : text = empty := Option.some.inj h
  rw [this] at h2
  cases h2

example : readDate (.micro (1000000 * 86400 * (1721457 - 2440588))) ≠ readDate .zero :=
  C139_not_empty 1721457 ⟨1, 2, 1⟩ ⟨by decide, by decide +kernel⟩ (by decide) _ ⟨by decide, by decide⟩

end Props
