import Verif.Model.TimeCoordinates

/-!
# Specs with dates

`DatedSpec`, `DatedSpecResolver` and `OptimizationSpec`, `meridian/schema/processors/model_processor.py:112-338`,
and the messages of `meridian/schema/utils/time_record.py:70-114`.  Dates become text and are parsed again
(`strftime`, `normalize_date`); for years of four digits that is the identity and is left out.
-/

namespace Verif.DatedSpec

open Verif.Calendar

/-- Errors. -/
inductive Err where
  | startAfterEnd
  | overflow
  | time (e : TimeCoordinates.Err)
  | blankName
  | blankGrid
  | level
deriving DecidableEq

/-- The next day. -/
def nextDay (a : CDate) : CDate :=
  if a.d < daysInMonth a.y a.m then ⟨a.y, a.m, a.d + 1⟩
  else if a.m < 12 then ⟨a.y, a.m + 1, 1⟩
  else ⟨a.y + 1, 1, 1⟩

/-- The day before; there is none before the first day of year 1. -/
def prevDay (a : CDate) : Option CDate :=
  if 1 < a.d then some ⟨a.y, a.m, a.d - 1⟩
  else if 1 < a.m then some ⟨a.y, a.m - 1, daysInMonth a.y (a.m - 1)⟩
  else if 1 < a.y then some ⟨a.y - 1, 12, 31⟩
  else none

/-- `date + timedelta(days=n)`. -/
def plusDays (a : CDate) : ℕ → CDate
  | 0 => a
  | n + 1 => nextDay (plusDays a n)

/-- `date - timedelta(days=n)`; `OverflowError` before year 1. -/
def minusDays (a : CDate) : ℕ → Option CDate
  | 0 => some a
  | n + 1 => (minusDays a n).bind prevDay

/-- `DatedSpec`, `meridian/schema/processors/model_processor.py:112-127`. -/
structure Spec where
  start : Option CDate
  stop : Option CDate
  tag : String := ""

/-- A `DateInterval` message. -/
structure Interval where
  start : CDate
  stop : CDate
  tag : String
deriving DecidableEq

/-- `DatedSpec.validate`, `meridian/schema/processors/model_processor.py:129-137`. -/
def validate (s : Spec) : Except Err Unit :=
  match s.start, s.stop with
  | some a, some b => if b.lt a then .error .startAfterEnd else .ok ()
  | _, _ => .ok ()

/-- `interval_days` of the time coordinates (positive for distinct dates). -/
def interval (dates : List CDate) : Except Err ℕ :=
  match TimeCoordinates.meanInterval dates with
  | .error e => .error (.time e)
  | .ok k => .ok k.toNat

/-- The inclusive end, `meridian/schema/processors/model_processor.py:176-180`. -/
def closedEnd (dates : List CDate) (stop : Option CDate) : Except Err (Option CDate) :=
  match stop with
  | none => .ok none
  | some b => match interval dates with
    | .error e => .error e
    | .ok k => match minusDays b k with
      | none => .error .overflow
      | some e => .ok (some e)

/-- `resolve_to_enumerated_selected_times`, `meridian/schema/processors/model_processor.py:184-197`, with
`to_closed_date_interval_tuple` (160-182). -/
def selectedTimes (dates : List CDate) (s : Spec) : Except Err (Option (List CDate)) :=
  match closedEnd dates s.stop with
  | .error e => .error e
  | .ok e => match TimeCoordinates.expandSelected dates s.start e with
    | .error x => .error (.time x)
    | .ok r => .ok r

/-- `resolve_to_bool_selected_times`, `meridian/schema/processors/model_processor.py:199-211`. -/
def boolTimes (dates : List CDate) (s : Spec) : Except Err (Option (List Bool)) :=
  match selectedTimes dates s with
  | .error e => .error e
  | .ok none => .ok none
  | .ok (some sel) => .ok (some (dates.map fun d => decide (d ∈ sel)))

/-- `collapse_to_date_interval_proto`, `meridian/schema/processors/model_processor.py:213-245`.  The lists
are not empty. -/
def collapse (dates : List CDate) (s : Spec) : Except Err Interval :=
  match selectedTimes dates s with
  | .error e => .error e
  | .ok r => match interval dates with
    | .error e => .error e
    | .ok k =>
      let l := r.getD dates
      .ok ⟨l.headD ⟨1, 1, 1⟩, plusDays (l.getLastD ⟨1, 1, 1⟩) k, s.tag⟩

/-- `transform_to_date_interval_protos`, `meridian/schema/processors/model_processor.py:247-279`. -/
def transform (dates : List CDate) (s : Spec) : Except Err (List Interval) :=
  match selectedTimes dates s with
  | .error e => .error e
  | .ok r => match interval dates with
    | .error e => .error e
    | .ok k => .ok ((r.getD dates).map fun d => ⟨d, plusDays d k, s.tag⟩)

/-- `resolve_to_date_interval_proto`, `meridian/schema/processors/model_processor.py:281-313`, with
`resolve_to_date_interval_open_end`. -/
def openEnd (dates : List CDate) (s : Spec) : Except Err Interval :=
  match s.stop with
  | some b => .ok ⟨s.start.getD (dates.headD ⟨1, 1, 1⟩), b, s.tag⟩
  | none => match interval dates with
    | .error e => .error e
    | .ok k => .ok ⟨s.start.getD (dates.headD ⟨1, 1, 1⟩), plusDays (dates.getLastD ⟨1, 1, 1⟩) k, s.tag⟩

/-- `not name or name.isspace()`, for ASCII white space. -/
def blank (name : List Char) : Bool := name.all fun c => c.isWhitespace

/-- `OptimizationSpec.validate`, `meridian/schema/processors/model_processor.py:334-346`. -/
def validateOptimization (s : Spec) (name grid : List Char) (level : ℚ) : Except Err Unit :=
  match validate s with
  | .error e => .error e
  | .ok () =>
    if blank name then .error .blankName
    else if blank grid then .error .blankGrid
    else if level < 0 ∨ 1 < level then .error .level
    else .ok ()

end Verif.DatedSpec
