import Verif.Model.CurveTable
import Verif.Spec.FreqReport

/-!
# What the table of response curves should say
-/

namespace Verif.CurveTable.Spec

open Verif.Mmm Verif.Mmm.Spec Verif.Metrics.Spec Verif.Summary Verif.Summary.Spec

/-- What the entries `mean`, `ci_lo` and `ci_hi` of the coordinate are. -/
def statistic (b : Band) : Stat :=
  match b with
  | .mean => .mean
  | .ciLo => .ciLo
  | .ciHi => .ciHi

/-- The incremental outcome over the selection of running a channel at `k` times its executions, given the
data, in one draw. -/
noncomputable def gain (ctx : Ctx) (d : Data) (s : Sel) (ch : Chan) (k : ℝ) (byReach useKpiArg : Bool)
    (p : Params) : ℝ :=
  s.sum (lift ctx p d ch 0 k byReach useKpiArg)

/-- The mean over the draws of the ROI of reach and frequency channel `c` at frequency `f`, impressions
being kept. -/
noncomputable def meanRoiAt (ctx : Ctx) (d : Data) (s : Sel) (rfSpend : T3) (c : ℕ) (f : ℝ)
    (useKpiArg : Bool) (draws : List Params) : ℝ :=
  (draws.map fun p => FreqReport.Spec.outcomeAt ctx d s c f useKpiArg p
    / FreqReport.Spec.costOf s rfSpend c).sum / draws.length

/-- `f` is a best frequency for channel `c` among those searched: 1, 1.1, 1.2, … below the largest
frequency of the data. -/
def Best (ctx : Ctx) (d : Data) (s : Sel) (rfSpend : T3) (c : ℕ) (f historicalMax : ℝ)
    (useKpiArg : Bool) (draws : List Params) : Prop :=
  (∃ k : ℕ, f = 1 + k / 10 ∧ f < historicalMax) ∧
  ∀ k : ℕ, (1 : ℝ) + k / 10 < historicalMax →
    meanRoiAt ctx d s rfSpend c (1 + k / 10) useKpiArg draws ≤ meanRoiAt ctx d s rfSpend c f useKpiArg draws

end Verif.CurveTable.Spec
