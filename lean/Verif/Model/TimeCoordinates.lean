import Verif.Model.Calendar
import Verif.Model.Num

/-!
# Time coordinates

`meridian/data/time_coordinates.py`.  Coordinates are whole dates (the time of day a pandas
timestamp could carry is not modelled).
-/

namespace Verif.TimeCoordinates

open Verif Verif.Calendar

/-- The errors raised. -/
inductive Err where
  | tooFewDates
  | notIncreasing
  | irregular
  | unsupportedDate
  | startUnknown
  | endUnknown
  | startAfterEnd
  | fewerThanTwo
deriving DecidableEq

/-- Neighbouring pairs. -/
def pairs {α : Type} (l : List α) : List (α × α) := l.zip l.tail

/-- `TimeCoordinates.__post_init__`, `meridian/data/time_coordinates.py:146-154`.  pandas'
`is_monotonic_increasing` is the non-strict test. -/
def create (dates : List CDate) : Except Err (List CDate) :=
  if dates.length ≤ 1 then .error .tooFewDates
  else if ¬ (pairs dates).all fun p => p.1.le p.2 then .error .notIncreasing
  else .ok dates

/-- `_interval_days`, `meridian/data/time_coordinates.py:186-189`. -/
def intervalDays (dates : List CDate) : List ℤ :=
  (pairs dates).map fun p => (p.2.ordinal : ℤ) - p.1.ordinal

/-- `np.all(np.isin(gaps, set))`. -/
def allIn (gaps set : List ℤ) : Bool := gaps.all fun g => decide (g ∈ set)

/-- The gap lengths that count as monthly, quarterly, yearly,
`meridian/data/time_coordinates.py:198, 201, 204` (and 281, 284, 287). -/
def monthly : List ℤ := [28, 29, 30, 31]
@[inherit_doc monthly] def quarterly : List ℤ := [90, 91, 92]
@[inherit_doc monthly] def yearly : List ℤ := [365, 366]

/-- `_is_regular_time_index`, `meridian/data/time_coordinates.py:191-207`. -/
def isRegular (dates : List CDate) : Bool :=
  let gaps := intervalDays dates
  if gaps.all fun g => decide (g = gaps.headD 0) then true
  else if allIn gaps monthly then true
  else if allIn gaps quarterly then true
  else if allIn gaps yearly then true
  else false

/-- `interval_days`, `meridian/data/time_coordinates.py:166-179`. -/
def meanInterval (dates : List CDate) : Except Err ℤ :=
  if isRegular dates then
    let gaps := intervalDays dates
    .ok (truncInt (npRound ((gaps.sum : ℚ) / gaps.length) 0))
  else .error .irregular

/-- Python `min` / `max` of a list of dates. -/
def minDate (l : List CDate) : Option CDate :=
  l.head?.map fun h => l.foldl (fun a b => if b.lt a then b else a) h
@[inherit_doc minDate]
def maxDate (l : List CDate) : Option CDate :=
  l.head?.map fun h => l.foldl (fun a b => if a.lt b then b else a) h

/-- `expand_selected_time_dims`, `meridian/data/time_coordinates.py:298-355`; the result `none` is
the Python result `None` (no restriction). -/
def expandSelected (dates : List CDate) (startDate endDate : Option CDate) :
    Except Err (Option (List CDate)) :=
  match minDate dates, maxDate dates with
  | some lo, some hi =>
    if startDate = none ∧ endDate = none then .ok none
    else if startDate.any fun s => decide (s ∉ dates) then .error .startUnknown
    else if endDate.any fun e => decide (e ∉ dates) then .error .endUnknown
    else
      let s := startDate.getD lo
      let e := endDate.getD hi
      if e.lt s then .error .startAfterEnd
      else if s = lo ∧ e = hi then .ok none
      else .ok (some (dates.filter fun d => s.le d && d.le e))
  | _, _ => .ok none

/-- `get_selected_dates`, `meridian/data/time_coordinates.py:209-235`.  `normalize_date` (lines
58-69) rejects `None`, although the type `DateInterval` admits it. -/
def getSelectedDates (dates : List CDate) (interval : Option (Option CDate × Option CDate)) :
    Except Err (List CDate) :=
  match interval with
  | none => .ok dates
  | some (some s, some e) => (expandSelected dates (some s) (some e)).map fun r => r.getD dates
  | some _ => .error .unsupportedDate

/-- The end of the final selected period, as a day number,
`meridian/data/time_coordinates.py:278-292`. -/
def finalEnd (dates : List CDate) (start : CDate) : Except Err ℤ :=
  let gaps := intervalDays dates
  if allIn gaps monthly then .ok (start.addMonths 1).ordinal
  else if allIn gaps quarterly then .ok (start.addMonths 3).ordinal
  else if allIn gaps yearly then .ok (start.addMonths 12).ordinal
  else (meanInterval dates).map fun k => start.ordinal + k

/-- The loop of `get_period_bounds`, `meridian/data/time_coordinates.py:271-296`. -/
def boundsLoop (dates : List CDate) : List CDate → Except Err (List (CDate × ℤ))
  | [] => .ok []
  | [a] => (finalEnd dates a).map fun e => [(a, e)]
  | a :: b :: rest => (boundsLoop dates (b :: rest)).map fun bs => (a, (b.ordinal : ℤ)) :: bs

/-- `get_period_bounds`, `meridian/data/time_coordinates.py:237-296`.  End dates are given by their
day number (`toordinal`). -/
def getPeriodBounds (dates : List CDate) (interval : Option (Option CDate × Option CDate)) :
    Except Err (List (CDate × ℤ)) :=
  if ¬ isRegular dates then .error .irregular
  else match getSelectedDates dates interval with
    | .error e => .error e
    | .ok sel => if sel.length < 2 then .error .fewerThanTwo else boundsLoop dates sel

end Verif.TimeCoordinates
