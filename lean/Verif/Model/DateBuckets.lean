import Verif.Model.TimeCoordinates

/-!
# Date bucketing

`meridian/schema/utils/date_range_bucketing.py`.
-/

namespace Verif.DateBuckets

open Verif.Calendar Verif.TimeCoordinates

/-- The errors raised: the constructor's `ValueError` and the `IndexError` of `input_dates[0]`. -/
inductive Err where
  | notAscending
  | noDates
deriving DecidableEq

/-- The three generators. -/
inductive Cadence where
  | month
  | quarter
  | year
deriving DecidableEq

/-- What the loops compare: month number, quarter number, year.
`meridian/schema/utils/date_range_bucketing.py:76, 89-90, 113`. -/
def Cadence.key : Cadence → CDate → ℕ
  | .month, a => a.m
  | .quarter, a => (a.m - 1) / 3 + 1
  | .year, a => a.y

/-- When a bucket is reported, lines 77, 97-100, 114. -/
def Cadence.startsBucket : Cadence → CDate → Bool
  | .month, a => a.d ≤ 7
  | .quarter, a => a.d ≤ 7 && a.m = (((a.m - 1) / 3 + 1) - 1) * 3 + 1
  | .year, a => a.d ≤ 7 && a.m = 1

/-- The loop common to the three generators, lines 72-80, 86-103, 109-117. -/
def loop (c : Cadence) : CDate → List CDate → List (CDate × CDate)
  | _, [] => []
  | start, d :: rest =>
    if c.key d ≠ c.key start then
      if c.startsBucket start then (start, d) :: loop c d rest else loop c d rest
    else loop c start rest

/-- Constructor (lines 37-52) and `generate_date_intervals`. -/
def generate (c : Cadence) (dates : List CDate) : Except Err (List (CDate × CDate)) :=
  if ¬ (pairs dates).all fun p => p.1.lt p.2 then .error .notAscending
  else match dates with
    | [] => .error .noDates
    | d :: rest => .ok (loop c d (d :: rest))

end Verif.DateBuckets
