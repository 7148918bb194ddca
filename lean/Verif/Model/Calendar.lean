import Mathlib.Algebra.BigOperators.Group.Finset.Basic
import Mathlib.Data.Nat.Basic

/-!
# Civil dates

The part of Python's `datetime.date` and pandas' `DateOffset` that Meridian relies on: proleptic
Gregorian dates from year 1, their order, `date.toordinal`, and month offsets.  (The upper limits,
year 9999 and pandas' year 2262, are not modelled.)
-/

namespace Verif.Calendar

/-- `datetime.date`. -/
structure CDate where
  y : ℕ
  m : ℕ
  d : ℕ
deriving DecidableEq

/-- CPython `datetime._is_leap`. -/
def isLeap (y : ℕ) : Bool := y % 4 = 0 && (y % 100 ≠ 0 || y % 400 = 0)

/-- CPython `datetime._days_in_month`. -/
def daysInMonth (y m : ℕ) : ℕ :=
  if m = 2 then (if isLeap y then 29 else 28)
  else if m = 4 ∨ m = 6 ∨ m = 9 ∨ m = 11 then 30 else 31

/-- What the `datetime.date` constructor accepts. -/
def CDate.Valid (a : CDate) : Prop :=
  1 ≤ a.y ∧ 1 ≤ a.m ∧ a.m ≤ 12 ∧ 1 ≤ a.d ∧ a.d ≤ daysInMonth a.y a.m

instance (a : CDate) : Decidable a.Valid := by unfold CDate.Valid; infer_instance

/-- Days before January 1st of year `y` (CPython `datetime._days_before_year`). -/
def daysBeforeYear (y : ℕ) : ℕ := (y - 1) * 365 + (y - 1) / 4 - (y - 1) / 100 + (y - 1) / 400

/-- Days of year `y` before month `m` (CPython `datetime._days_before_month`). -/
def daysBeforeMonth (y m : ℕ) : ℕ := ((List.range (m - 1)).map fun i => daysInMonth y (i + 1)).sum

/-- `date.toordinal()` (CPython `datetime._ymd2ord`). -/
def CDate.ordinal (a : CDate) : ℕ := daysBeforeYear a.y + daysBeforeMonth a.y a.m + a.d

/-- `date.__lt__`: lexicographic comparison of `(year, month, day)`. -/
def CDate.lt (a b : CDate) : Bool :=
  a.y < b.y || (a.y = b.y && (a.m < b.m || (a.m = b.m && a.d < b.d)))

/-- `date.__le__`. -/
def CDate.le (a b : CDate) : Bool := a.lt b || a = b

/-- `pd.Timestamp(date) + pd.DateOffset(months=k)` (dateutil's `relativedelta`): step `k` calendar
months and cut the day off at the end of the month. -/
def CDate.addMonths (a : CDate) (k : ℕ) : CDate :=
  let i := a.y * 12 + (a.m - 1) + k
  let y := i / 12
  let m := i % 12 + 1
  { y := y, m := m, d := min a.d (daysInMonth y m) }

end Verif.Calendar
