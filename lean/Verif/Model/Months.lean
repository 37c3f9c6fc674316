import Verif.Model.Dates
/-!
# Adding months to dates

`gomonth` (vfpfunc.py 1238-1239) is `dateutil.relativedelta.relativedelta(months=delta)` added to the
date. The two steps below are those of `relativedelta`: `_fix` and `__add__`, from its source.
-/
namespace Model.Dates

/-- `relativedelta._fix` for a number of months: years and months of the same sign, fewer than twelve
months. Called by vfpfunc.py:1239 -/
def fixMonths (n : Int) : Int × Int :=
  if 11 < n.natAbs then
    if 0 ≤ n then (n / 12, n % 12) else (-((-n) / 12), -((-n) % 12))
  else (0, n)

/-- The carry of `relativedelta.__add__`. Called by vfpfunc.py:1239 -/
def carry (year month : Int) : Int × Int :=
  if 12 < month then (year + 1, month - 12) else if month < 1 then (year - 1, month + 12) else (year, month)

/-- `gomonth`, vfpfunc.py 1238-1239; `none` is the exception of `date.replace` for a year that is not between
1 and 9999. The time of a `datetime` is not changed and is left out here. -/
def gomonth (d : Date) (n : Int) : Option Date :=
  let ym := carry (d.year + (fixMonths n).1) (d.month + (fixMonths n).2)
  if ym.1 < 1 then none
  else makeDate ym.1.toNat ym.2.toNat (min (daysIn ym.1.toNat ym.2.toNat) d.day)

end Model.Dates
