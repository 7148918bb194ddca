import Verif.Model.Summary

/-!
# The table of response curves

`Analyzer.response_curves`, `meridian/analysis/analyzer.py:3571-3762`: all channels, all multipliers, the
interval, the choice of the distribution and the use of the optimal frequency.  Selections are resolved
to indices (`Verif.Model.Selection`), data has the periods of the model, spend is by geo and time.
-/

namespace Verif.CurveTable

open Verif.Mmm Verif.Selection Verif.Transformers Verif.Metrics Verif.Curves Verif.Results Verif.Summary

/-- The coordinate `metric` of the curves, `meridian/analysis/analyzer.py:3744-3748`. -/
inductive Band where
  | mean
  | ciLo
  | ciHi
deriving DecidableEq

/-- The statistic of a band, `get_central_tendency_and_ci` without the median
(`meridian/analysis/analyzer.py:48-76`). -/
def Band.stat : Band → Stat
  | .mean => .mean
  | .ciLo => .ciLo
  | .ciHi => .ciHi

/-- The arguments of `response_curves`, `meridian/analysis/analyzer.py:3571-3583`. -/
structure Args where
  multipliers : Option (List ℝ) := none
  usePosterior : Bool := true
  gi : Option (List ℕ) := none
  ti : Option (List ℕ) := none
  byReach : Bool := true
  useOptimalFrequency : Bool := false
  useKpi : Bool := false
  level : ℝ := 9 / 10

/-- `spend_multipliers`, by default `list(np.arange(0, 2.2, 0.2))`,
`meridian/analysis/analyzer.py:3684-3685`. -/
noncomputable def multipliers (a : Args) : List ℝ :=
  match a.multipliers with
  | some l => l
  | none => (List.range ⌈((22 : ℝ) / 10 - 0) / (2 / 10)⌉.toNat).map fun k : ℕ => 0 + (k : ℝ) * (2 / 10)

/-- Reach and frequency of the curves, `meridian/analysis/analyzer.py:3659-3683`: `optimal_freq` is called
with the selections and `use_kpi`, and with the defaults of its other arguments. -/
noncomputable def curveData (ctx : Ctx) (np : Np) (s : Samples) (d : Data) (spend : T3)
    (historicalMax : ℝ) (a : Args) : Except Summary.Err Data :=
  if 0 < ctx.rf.n ∧ a.useOptimalFrequency then
    match optimalFreqReport ctx np s d (fun g t c => spend g t (ctx.media.n + c)) historicalMax
        { gi := a.gi, ti := a.ti, useKpi := a.useKpi } with
    | .error e => .error e
    | .ok r => .ok (atFrequency d fun c => r.optimal.getD c 0)
  else .ok d

open Classical in
/-- The values of all channels for one multiplier, `meridian/analysis/analyzer.py:3698-3721`, with the checks
of `incremental_outcome` (lines 1350-1365). -/
noncomputable def curveRow (ctx : Ctx) (np : Np) (s : Samples) (D : Data) (a : Args) (k : ℝ) :
    Except Summary.Err (ℕ → Band → ℝ) :=
  if k = 0 then .ok fun _ _ => 0
  else
    match s.group (if a.usePosterior then .posterior else .prior) with
    | none => .error .notFitted
    | some draws =>
      match checkFactors 0 k with
      | .error _ => .error .factors
      | .ok () => .ok fun m b => Summary.stat np a.level b.stat (draws.map fun p =>
          total ctx (fun g t => incrementalOutcome ctx p D (fun _ => 0) 0 k (fun _ => true) a.byReach true
            (Mmm.useKpi ctx a.useKpi) g t m) a.gi a.ti)

/-- The loop over the multipliers, `meridian/analysis/analyzer.py:3698-3721`. -/
noncomputable def curveRows (ctx : Ctx) (np : Np) (s : Samples) (D : Data) (a : Args) :
    List ℝ → Except Summary.Err (List (ℕ → Band → ℝ))
  | [] => .ok []
  | k :: l =>
    match curveRow ctx np s D a k with
    | .error e => .error e
    | .ok r =>
      match curveRows ctx np s D a l with
      | .error e => .error e
      | .ok rs => .ok (r :: rs)

/-- The dataset: variables by position of the multiplier and of the paid channel. -/
structure Table where
  multipliers : List ℝ
  spend : ℕ → ℕ → ℝ
  outcome : ℕ → ℕ → Band → ℝ
  level : ℝ

/-- `response_curves`, `meridian/analysis/analyzer.py:3571-3762`; `d` is `new_data` completed with the data of
the model and `spend` that of the paid channels. -/
noncomputable def responseCurves (ctx : Ctx) (np : Np) (s : Samples) (d : Data) (spend : T3)
    (historicalMax : ℝ) (a : Args) : Except Summary.Err Table :=
  match curveData ctx np s d spend historicalMax a with
  | .error e => .error e
  | .ok D =>
    match curveRows ctx np s D a (multipliers a) with
    | .error e => .error e
    | .ok rows => .ok
        { multipliers := multipliers a
          spend := fun i m => (multipliers a).getD i 0 * total ctx (fun g t => spend g t m) a.gi a.ti
          outcome := fun i m b => (rows.getD i fun _ _ => 0) m b
          level := a.level }

end Verif.CurveTable
