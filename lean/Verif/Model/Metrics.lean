import Verif.Model.Mmm
import Verif.Model.Selection

/-!
# ROI, marginal ROI, CPIK and the columns of the summary

`meridian/analysis/analyzer.py`.  One parameter draw, one channel at a time, except where a list of
channels or of draws is an argument.  Division by zero gives infinity or NaN in the code and zero here;
the theorems assume non-zero denominators where it matters.
-/

namespace Verif.Metrics

open Verif.Mmm Verif.Selection

/-- Errors. -/
inductive Err where
  | geoNotAllowed
  | timeNotAllowed
  | aggregateGeos
deriving DecidableEq

/-- What `_validate_geo_and_time_granularity` reads of the spend of `InputData`. -/
structure SpendDims where
  present : Bool
  hasGeo : Bool
  hasTime : Bool

/-- `_validate_geo_and_time_granularity`, `meridian/analysis/analyzer.py:1601-1661`. -/
def validateGranularity (media rf : SpendDims) (geosGiven timesGiven aggregateGeos : Bool) :
    Except Err Unit :=
  if (geosGiven || !aggregateGeos) && media.present && !media.hasGeo then .error .geoNotAllowed
  else if (geosGiven || !aggregateGeos) && rf.present && !rf.hasGeo then .error .geoNotAllowed
  else if timesGiven && media.present && !media.hasTime then .error .timeNotAllowed
  else if timesGiven && rf.present && !rf.hasTime then .error .timeNotAllowed
  else .ok ()

/-- The tensor of `DataTensors.total_spend` (`meridian/analysis/tensors.py:393-408`): by geo and time,
or one total per channel. -/
inductive Spend where
  | cells (x : T3)
  | totals (x : ℕ → ℝ)

/-- The product of `total_spend()` and a number. -/
noncomputable def Spend.scale (a : ℝ) : Spend → Spend
  | .cells x => .cells fun g t c => x g t c * a
  | .totals x => .totals fun c => x c * a

/-- The common part of `roi` and `marginal_roi`, `meridian/analysis/analyzer.py:1893-1922,
1765-1795`: an incremental outcome of channel `m`, summed over the selected times and, if asked, geos,
divided by the spend summed the same way, or by the channel's total. -/
noncomputable def ratio (ctx : Ctx) (inc : T3) (spend : Spend) (gi ti : Option (List ℕ))
    (aggregateGeos : Bool) (m : ℕ) : Except Err (List (List ℝ)) :=
  let num := filterAggregate (fun g t => inc g t m) ctx.nGeos ctx.nTimes gi ti aggregateGeos true
  match spend with
  | .cells x =>
    let den := filterAggregate (fun g t => x g t m) ctx.nGeos ctx.nTimes gi ti aggregateGeos true
    .ok (List.zipWith (List.zipWith (· / ·)) num den)
  | .totals x => if !aggregateGeos then .error .aggregateGeos else .ok (num.map (·.map (· / x m)))

/-- `Analyzer.roi`, `meridian/analysis/analyzer.py:1797-1922`, after the selections are resolved.  The
positions of paid channels on the channel axis do not depend on `include_non_paid_channels`. -/
noncomputable def roi (ctx : Ctx) (media rf : SpendDims) (geosGiven timesGiven : Bool) (p : Params)
    (d : Data) (spend : Spend) (gi ti : Option (List ℕ)) (aggregateGeos useKpiArg : Bool) (m : ℕ) :
    Except Err (List (List ℝ)) :=
  match validateGranularity media rf geosGiven timesGiven aggregateGeos with
  | .error e => .error e
  | .ok () =>
    ratio ctx (incrementalOutcome ctx p d (fun _ => 0) 0 1 (fun _ => true) true true useKpiArg) spend
      gi ti aggregateGeos m

/-- `Analyzer.marginal_roi`, `meridian/analysis/analyzer.py:1663-1795`. -/
noncomputable def marginalRoi (ctx : Ctx) (media rf : SpendDims) (geosGiven timesGiven : Bool)
    (p : Params) (d : Data) (spend : Spend) (gi ti : Option (List ℕ))
    (aggregateGeos byReach useKpiArg : Bool) (increase : ℝ) (m : ℕ) :
    Except Err (List (List ℝ)) :=
  match validateGranularity media rf geosGiven timesGiven aggregateGeos with
  | .error e => .error e
  | .ok () =>
    ratio ctx (incrementalOutcome ctx p d (fun _ => 0) 1 (1 + increase) (fun _ => true) byReach true
      (useKpi ctx useKpiArg)) (spend.scale increase) gi ti aggregateGeos m

/-- `Analyzer.cpik`, `meridian/analysis/analyzer.py:1924-1997`. -/
noncomputable def cpik (ctx : Ctx) (media rf : SpendDims) (geosGiven timesGiven : Bool) (p : Params)
    (d : Data) (spend : Spend) (gi ti : Option (List ℕ)) (aggregateGeos : Bool) (m : ℕ) :
    Except Err (List (List ℝ)) :=
  match roi ctx media rf geosGiven timesGiven p d spend gi ti aggregateGeos true m with
  | .error e => .error e
  | .ok r => .ok (r.map (·.map (1 / ·)))

/-! ### The columns of `summary_metrics` -/

/-- Append the total over channels: `compute_incremental_outcome_aggregate`,
`meridian/analysis/analyzer.py:2279-2295`, and lines 2422-2428, 2660-2666 for impressions and spend. -/
def withTotal (x : List ℝ) : List ℝ := x ++ [x.sum]

/-- `np.mean` over draws, channel by channel (`get_central_tendency_and_ci`,
`meridian/analysis/analyzer.py:48-76`). -/
noncomputable def meanOver (n : ℕ) (draws : List (List ℝ)) : List ℝ :=
  (List.range n).map fun i => (draws.map fun x => x.getD i 0).sum / draws.length

/-- `incremental_outcome`, mean column, `meridian/analysis/analyzer.py:2532-2540`. -/
noncomputable def summaryIncremental (n : ℕ) (inc : List (List ℝ)) : List ℝ :=
  meanOver (n + 1) (inc.map withTotal)

/-- `_compute_roi_aggregate`, mean column, `meridian/analysis/analyzer.py:4266-4285`; `mroi` is the same
with the spend multiplied by the increase. -/
noncomputable def summaryRoi (n : ℕ) (inc : List (List ℝ)) (spend : List ℝ) : List ℝ :=
  meanOver (n + 1) ((inc.map withTotal).map fun x => List.zipWith (· / ·) x (withTotal spend))

/-- `_compute_cpik_aggregate` for one draw, `meridian/analysis/analyzer.py:4351-4368`. -/
noncomputable def summaryCpikDraw (inc spend : List ℝ) : List ℝ :=
  List.zipWith (· / ·) (withTotal spend) (withTotal inc)

/-- `pct_of_spend` (and `pct_of_impressions`), `meridian/analysis/analyzer.py:4313-4316`. -/
noncomputable def pctOfTotal (x : List ℝ) : List ℝ :=
  (withTotal x).map (· / x.sum * 100)

/-- `cpm`, `meridian/analysis/analyzer.py:4324-4327`. -/
noncomputable def cpm (spend impressions : List ℝ) : List ℝ :=
  (List.zipWith (· / ·) (withTotal spend) (withTotal impressions)).map (· * 1000)

/-- `_compute_pct_of_contribution`, mean column, `meridian/analysis/analyzer.py:4370-4404`, for
`summary_metrics`. -/
noncomputable def pctOfContribution (n : ℕ) (inc : List (List ℝ)) (expected : List ℝ) : List ℝ :=
  meanOver (n + 1)
    ((inc.map withTotal).map fun x => x.map (· / (expected.sum / expected.length) * 100))

/-- `_compute_pct_of_contribution`, mean column, for `baseline_summary_metrics`
(`meridian/analysis/analyzer.py:2946-2954`). -/
noncomputable def baselinePctOfContribution (baseline expected : List ℝ) : ℝ :=
  (baseline.map (· / (expected.sum / expected.length) * 100)).sum / baseline.length

end Verif.Metrics
