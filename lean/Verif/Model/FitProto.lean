import Verif.Model.FitData
import Verif.Model.TimeCoordinates

/-!
# The model fit message

`ModelFitProcessor`, `meridian/schema/processors/model_fit_processor.py`, on top of
`expected_vs_actual_data` (`Verif.FitData`) and `predictive_accuracy` (`Verif.Accuracy`), and
`convert_times_to_date_intervals`, `meridian/schema/utils/time_record.py:33-67`.
-/

namespace Verif.FitProto

open Verif (Num)
open Verif.Calendar (CDate)
open Verif.Accuracy (EvalSet Row Gran)
open Verif.FitData (Ctx Key)

/-- Errors. -/
inductive Err where
  | level
  | noSpec
  | interval (e : Verif.Interval.Err)
  | accuracy (e : Verif.Accuracy.Err)
  | time (e : Verif.TimeCoordinates.Err)
  | key
  | item
deriving DecidableEq

/-- `ModelFitSpec`, `meridian/schema/processors/model_fit_processor.py:84-105`. -/
structure FitSpec where
  split : Bool := true
  level : ℚ
deriving DecidableEq

/-- `ModelFitSpec.validate`, `meridian/schema/processors/model_fit_processor.py:100-104`. -/
def FitSpec.validate (s : FitSpec) : Except Err Unit :=
  if s.level ≤ 0 ∨ 1 ≤ s.level then .error .level else .ok ()

/-- An `Estimate` message with one uncertainty. -/
structure Estimate where
  value : Num
  probability : ℚ
  lower : Num
  upper : Num
deriving DecidableEq

/-- A `Prediction` message; the end of the interval is a day number. -/
structure Prediction where
  start : CDate
  stop : ℤ
  predicted : Estimate
  baseline : Estimate
  actual : ℚ
deriving DecidableEq

/-- A `Result` message. -/
structure Result where
  name : EvalSet
  predictions : List Prediction
  performance : Row
deriving DecidableEq

/-- `convert_times_to_date_intervals`, `meridian/schema/utils/time_record.py:33-67`; the entries in order
of insertion. -/
def convertTimes (dates : List CDate) : Except Err (List (CDate × ℤ)) :=
  if dates.length < 2 then .error (.time .tooFewDates)
  else match TimeCoordinates.create dates with
    | .error e => .error (.time e)
    | .ok ds => match TimeCoordinates.getPeriodBounds ds none with
      | .error e => .error (.time e)
      | .ok bs => .ok bs

/-- The entry of a dictionary (a later assignment replaces an earlier one). -/
def dictGet {α β : Type} [DecidableEq α] (l : List (α × β)) (k : α) : Except Err β :=
  match l.reverse.find? fun p => decide (p.1 = k) with
  | some p => .ok p.2
  | none => .error .key

/-- `dataset[...].sel(...)`: the entry with these coordinates. -/
def sel {α β : Type} [DecidableEq α] (l : List (α × β)) (k : α) : Except Err β :=
  match l.find? fun p => decide (p.1 = k) with
  | some p => .ok p.2
  | none => .error .key

/-- The estimate of one entry, `meridian/schema/processors/model_fit_processor.py:309-322`. -/
def estimate (level : ℚ) (r : List Num) : Estimate := ⟨r.getD 0 none, level, r.getD 1 none, r.getD 2 none⟩

/-- One pass of the loop of `_create_result`, `meridian/schema/processors/model_fit_processor.py:227-262`.
`e` is the evaluation set the dataset was restricted to. -/
def prediction (d : FitData.Data) (bs : List (CDate × ℤ)) (level : ℚ) (e : Option EvalSet)
    (p : ℕ × CDate) : Except Err Prediction :=
  match dictGet bs p.2, sel d.actual (none, some p.1), sel d.expected (none, some p.1, e),
      sel d.baseline (none, some p.1, e) with
  | .ok stop, .ok a, .ok ex, .ok ba => .ok ⟨p.2, stop, estimate level ex, estimate level ba, a⟩
  | .error x, _, _, _ => .error x
  | _, .error x, _, _ => .error x
  | _, _, .error x, _ => .error x
  | _, _, _, .error x => .error x

/-- All results or the first error. -/
def collect {α β : Type} (f : α → Except Err β) : List α → Except Err (List β)
  | [] => .ok []
  | a :: l => match f a with
    | .error e => .error e
    | .ok b => match collect f l with
      | .error e => .error e
      | .ok bs => .ok (b :: bs)

/-- The rows left after selecting the national granularity and, if there is one, the evaluation set. -/
def keep (e : Option EvalSet) (k : Gran × Option EvalSet) : Bool :=
  match e with
  | some x => decide (k = (.national, some x))
  | none => decide (k.1 = .national)

/-- `_evaluate_model_fit`, `meridian/schema/processors/model_fit_processor.py:331-376`: `.item()` needs
exactly one value.  With an evaluation set the dataset was restricted to it first. -/
def performance (m : Accuracy.Dataset) (e : Option EvalSet) : Except Err Row :=
  match m.filter fun r => keep e r.1 with
  | [r] => .ok r.2
  | _ => .error .item

/-- `_create_result`, `meridian/schema/processors/model_fit_processor.py:196-268`. -/
def createResult (d : FitData.Data) (m : Accuracy.Dataset) (dates : List CDate) (bs : List (CDate × ℤ))
    (level : ℚ) (name : EvalSet) (e : Option EvalSet) : Except Err Result :=
  match collect (prediction d bs level e) ((List.range dates.length).zip dates) with
  | .error x => .error x
  | .ok ps => match performance m e with
    | .error x => .error x
    | .ok r => .ok ⟨name, ps, r⟩

/-- The model as `predictive_accuracy` sees it with the default `use_kpi`. -/
def accCtx (c : Ctx) (national : Bool) : Accuracy.Ctx where
  national := national
  geos := c.geos
  times := c.times
  hold := c.hold
  outcome := c.actual (FitData.useKpi c false)
  draws := (c.expected (FitData.useKpi c false)).flatten

/-- `ModelFitProcessor.execute`, `meridian/schema/processors/model_fit_processor.py:134-194`. -/
def execute (norm : String → Option String) (c : Ctx) (national : Bool) (dates : List CDate)
    (specs : List FitSpec) : Except Err (List Result) :=
  match specs with
  | [] => .error .noSpec
  | s :: _ =>
    match FitData.expectedVsActual c true false false s.split s.level with
    | .error x => .error (.interval x)
    | .ok d => match Accuracy.predictiveAccuracy norm (accCtx c national) none none with
      | .error x => .error (.accuracy x)
      | .ok m => match convertTimes dates with
        | .error x => .error x
        | .ok bs =>
          if (FitData.splitBy c s.split).isSome then
            collect (fun e => createResult d m dates bs s.level e (some e)) [.train, .test, .all]
          else collect (fun e => createResult d m dates bs s.level e none) [.all]

end Verif.FitProto
