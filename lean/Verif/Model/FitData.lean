import Verif.Model.Interval
import Verif.Model.Accuracy

/-!
# Expected against actual outcome

`Analyzer.expected_vs_actual_data` with its helpers (`meridian/analysis/analyzer.py:319-351,
2001-2176`) and the `ModelFit` object that plots it (`meridian/analysis/visualizer.py:392-697`).

The draws of the expected and of the baseline outcome are inputs (they are the subject of other
properties), for revenue and for KPI; they are finite and exact.  Geos and times are positions, with
names where the code compares names.
-/

namespace Verif.FitData

open Verif (Num)
open Verif.Accuracy (EvalSet)
open Verif.Interval (central)

/-- An array of geos by times. -/
abbrev Cells := ℕ → ℕ → ℚ

/-- Chains of draws, each draw an array of geos by times. -/
abbrev Chains := List (List Cells)

/-- The parts of the model that are used.  `hold` is `holdout_id`: geos by times, or for a national
model times only (kept as row 0; numpy broadcasts it along the one geo).  `actual`, `expected` and
`baseline` take `use_kpi`. -/
structure Ctx where
  geos : List String
  times : List String
  hold : Option (ℕ → ℕ → Bool)
  kpiIsRevenue : Bool
  hasRevenuePerKpi : Bool
  actual : Bool → Cells
  expected : Bool → Chains
  baseline : Bool → Chains

/-- `Analyzer._use_kpi`, `meridian/analysis/analyzer.py:319-349` (the warnings are left out). -/
def useKpi (c : Ctx) (request : Bool) : Bool :=
  if request && c.kpiIsRevenue then false
  else if !request && !c.hasRevenuePerKpi then true
  else request

/-- `np.where(holdout_id, np.nan, draws)` (Train), `np.where(holdout_id, draws, np.nan)` (Test) and
`draws` (All Data) in one cell, `meridian/analysis/analyzer.py:2043-2051`. -/
def pick (held : Bool) (e : EvalSet) (x : ℚ) : Num :=
  match e with
  | .train => if held then none else some x
  | .test => if held then some x else none
  | .all => some x

/-- Sum of an array: one NaN makes it NaN. -/
def nsum : List Num → Num
  | [] => some 0
  | none :: _ => none
  | some a :: l => (nsum l).map (a + ·)

/-- The positions summed for each entry of an axis: all of them if the axis is aggregated
(`filter_and_aggregate_by_indices` without indices, `meridian/analysis/analyzer.py:695-701`).  The
entry is named by its position, or by nothing if the axis is dropped. -/
def groups (n : ℕ) (aggregate : Bool) : List (Option ℕ × List ℕ) :=
  if aggregate then [(none, List.range n)] else (List.range n).map fun i => (some i, [i])

/-- The draws of one entry of the aggregated array. -/
def cellDraws (x : Chains) (f : ℕ → ℕ → ℚ → Num) (gs ts : List ℕ) : List (List Num) :=
  x.map (·.map fun d => nsum (gs.flatMap fun g => ts.map fun t => f g t (d g t)))

/-- The name of an entry: geo, time, evaluation set (where there are such axes). -/
abbrev Key := Option ℕ × Option ℕ × Option EvalSet

/-- The summaries of a list of entries; a bad level raises. -/
def summaries (level : ℚ) : List (Key × List (List Num)) →
    Except Verif.Interval.Err (List (Key × List Num))
  | [] => .ok []
  | (k, d) :: l =>
    match central d level false with
    | .error e => .error e
    | .ok r =>
      match summaries level l with
      | .error e => .error e
      | .ok rs => .ok ((k, r) :: rs)

/-- The entries of the array passed to `get_central_tendency_and_ci`,
`meridian/analysis/analyzer.py:2031-2066`. -/
def entries (c : Ctx) (x : Chains) (split : Option (ℕ → ℕ → Bool)) (ag at_ : Bool) :
    List (Key × List (List Num)) :=
  (groups c.geos.length ag).flatMap fun G =>
    (groups c.times.length at_).flatMap fun T =>
      match split with
      | none => [((G.1, T.1, none), cellDraws x (fun _ _ v => some v) G.2 T.2)]
      | some h => [EvalSet.train, .test, .all].map fun e =>
          ((G.1, T.1, some e), cellDraws x (fun g t v => pick (h g t) e v) G.2 T.2)

/-- `_mean_and_ci_by_eval_set`, `meridian/analysis/analyzer.py:1999-2067`. -/
def meanAndCi (c : Ctx) (x : Chains) (split : Option (ℕ → ℕ → Bool)) (ag at_ : Bool) (level : ℚ) :
    Except Verif.Interval.Err (List (Key × List Num)) :=
  summaries level (entries c x split ag at_)

/-- The dataset: mean, lower and upper end for each entry of `expected` and `baseline`, and the
actual outcome, which has no evaluation-set axis. -/
structure Data where
  expected : List (Key × List Num)
  baseline : List (Key × List Num)
  actual : List ((Option ℕ × Option ℕ) × ℚ)
deriving DecidableEq

/-- `_can_split_by_holdout_id`, `meridian/analysis/analyzer.py:2069-2079`: the flags to split by. -/
def splitBy (c : Ctx) (split : Bool) : Option (ℕ → ℕ → Bool) := if split then c.hold else none

/-- The actual outcome, `meridian/analysis/analyzer.py:2142-2152`. -/
def actuals (c : Ctx) (kpi ag at_ : Bool) : List ((Option ℕ × Option ℕ) × ℚ) :=
  (groups c.geos.length ag).flatMap fun G => (groups c.times.length at_).map fun T =>
    ((G.1, T.1), (G.2.flatMap fun g => T.2.map fun t => c.actual kpi g t).sum)

/-- `expected_vs_actual_data`, `meridian/analysis/analyzer.py:2086-2176`. -/
def expectedVsActual (c : Ctx) (ag at_ request split : Bool) (level : ℚ) :
    Except Verif.Interval.Err Data :=
  match meanAndCi c (c.expected (useKpi c request)) (splitBy c split) ag at_ level with
  | .error e => .error e
  | .ok ex =>
    match meanAndCi c (c.baseline (useKpi c request)) (splitBy c split) ag at_ level with
    | .error e => .error e
    | .ok ba => .ok ⟨ex, ba, actuals c (useKpi c request) ag at_⟩

/-! ## The `ModelFit` object -/

/-- A `ModelFit` object, `meridian/analysis/visualizer.py:399-422`. -/
structure Fit where
  kpi : Bool
  data : Data
deriving DecidableEq

/-- `ModelFit.__init__`, `meridian/analysis/visualizer.py:399-422`. -/
def Fit.new (c : Ctx) (request : Bool) (level : ℚ) : Except Verif.Interval.Err Fit :=
  match expectedVsActual c false false (useKpi c request) false level with
  | .error e => .error e
  | .ok d => .ok ⟨useKpi c request, d⟩

/-- `ModelFit.update_confidence_level`, `meridian/analysis/visualizer.py:435-438`: the call leaves
`use_kpi` at its default, `False`. -/
def Fit.update (c : Ctx) (f : Fit) (level : ℚ) : Except Verif.Interval.Err Fit :=
  match expectedVsActual c false false false false level with
  | .error e => .error e
  | .ok d => .ok { f with data := d }

/-- The outcome named in the title and on the axis of the plot,
`meridian/analysis/visualizer.py:473, 495-498`. -/
inductive Label where
  | kpi
  | revenue
deriving DecidableEq

/-- See `Label`. -/
def Fit.label (f : Fit) : Label := if f.kpi then .kpi else .revenue

/-- One line of the plotted table: geo (dropped if aggregated), time, mean, lower and upper end. -/
structure Line where
  geo : Option ℕ
  time : ℕ
  mean : Num
  lo : Num
  hi : Num
deriving DecidableEq

/-- The entry of a geo and a time in an unaggregated table. -/
def lookup (t : List (Key × List Num)) (g s : ℕ) : List Num :=
  match t.find? (fun r => decide (r.1 = (some g, some s, none))) with
  | some r => r.2
  | none => []

/-- `DataFrame.groupby(...).sum()`: pandas leaves NaN out of a sum. -/
def skipSum (l : List Num) : ℚ := (l.filterMap id).sum

/-- `_transform_data_to_dataframe` for one of the types `expected` and `baseline`,
`meridian/analysis/visualizer.py:648-697`, for selected geos and times that are there. -/
def plotLines (t : List (Key × List Num)) (gs ts : List ℕ) (showGeo : Bool) : List Line :=
  if showGeo then
    gs.flatMap fun g => ts.map fun s =>
      ⟨some g, s, (lookup t g s).getD 0 none, (lookup t g s).getD 1 none, (lookup t g s).getD 2 none⟩
  else
    ts.map fun s =>
      ⟨none, s, some (skipSum (gs.map fun g => (lookup t g s).getD 0 none)),
        some (skipSum (gs.map fun g => (lookup t g s).getD 1 none)),
        some (skipSum (gs.map fun g => (lookup t g s).getD 2 none))⟩

end Verif.FitData
