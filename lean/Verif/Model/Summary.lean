import Verif.Model.Results

/-!
# The summary table, the baseline table and the report of the optimal frequency

`Analyzer.summary_metrics`, `baseline_summary_metrics` and `optimal_freq`,
`meridian/analysis/analyzer.py`.

A table is a function of the variable, the distribution, the statistic, the position of the geo and of
the time (0 where summed) and the position of the channel; the last channel is the total over channels.
`none` stands for NaN, and for the infinite value of a quotient by zero.  Selections are resolved to
indices (`Verif.Model.Selection`); the labels of the coordinates are in `Verif.Model.Labels`.  Spend is
by geo and time.
-/

namespace Verif.Summary

open Verif.Mmm Verif.Selection Verif.Transformers Verif.Metrics Verif.Curves Verif.Results

/-- Errors. -/
inductive Err where
  | notFitted
  | factors
  | shape
  | noRfChannels
  | emptyGrid
deriving DecidableEq

/-- The coordinate `distribution`. -/
inductive Dist where
  | prior
  | posterior
deriving DecidableEq

/-- The coordinate `metric`. -/
inductive Stat where
  | mean
  | median
  | ciLo
  | ciHi
deriving DecidableEq

/-- The variables of the summary. -/
inductive Var where
  | impressions
  | pctOfImpressions
  | spend
  | pctOfSpend
  | cpm
  | incrementalOutcome
  | pctOfContribution
  | roi
  | effectiveness
  | mroi
  | cpik
deriving DecidableEq

/-- The order statistics of numpy; those of `Verif.Model.Interval` on real numbers. -/
structure Np where
  quantile : List ℝ → ℝ → ℝ
  median : List ℝ → ℝ

/-- `get_central_tendency_and_ci` over all draws, with the median, `meridian/analysis/analyzer.py:48-76`. -/
noncomputable def stat (np : Np) (level : ℝ) : Stat → List ℝ → ℝ
  | .mean, l => l.sum / l.length
  | .median, l => np.median l
  | .ciLo, l => np.quantile l ((1 - level) / 2)
  | .ciHi, l => np.quantile l ((1 + level) / 2)

/-- The same for draws that may be NaN.  (An infinite draw makes the mean infinite or NaN, but not always
the quantiles: for such draws `none` only says that the value is not modelled.) -/
noncomputable def statN (np : Np) (level : ℝ) (st : Stat) (l : List (Option ℝ)) : Option ℝ :=
  if l.any (·.isNone) then none else some (stat np level st (l.map (·.getD 0)))

/-- The draws of the model: `inference_data.prior` and `inference_data.posterior`. -/
structure Samples where
  prior : Option (List Params)
  posterior : Option (List Params)

/-- The group of a distribution. -/
def Samples.group (s : Samples) : Dist → Option (List Params)
  | .prior => s.prior
  | .posterior => s.posterior

/-- The arguments of `summary_metrics`, `meridian/analysis/analyzer.py:2297-2313`, with resolved
selections. -/
structure Args where
  opt : Option (ℕ → ℝ) := none
  gi : Option (List ℕ) := none
  ti : Option (List ℕ) := none
  aggregateGeos : Bool := true
  aggregateTimes : Bool := true
  useKpi : Bool := false
  includeNonPaid : Bool := false
  byReach : Bool := true
  increase : ℝ := 1 / 100
  baseline : ℕ → ℝ := fun _ => 0
  level : ℝ := 9 / 10

/-- Number of channels without the total, `meridian/analysis/analyzer.py:2485-2490`. -/
def nChannels (ctx : Ctx) (a : Args) : ℕ :=
  if a.includeNonPaid then nMediaLike ctx + ctx.nNonMedia else nPaid ctx

/-- One cell of `filter_and_aggregate_by_indices` (`meridian/analysis/analyzer.py:595-701`). -/
noncomputable def cell (ctx : Ctx) (nT : ℕ) (a : Args) (i j : ℕ) (x : ℕ → ℕ → ℝ) : ℝ :=
  ((filterAggregate x ctx.nGeos nT a.gi a.ti a.aggregateGeos a.aggregateTimes).getD i []).getD j 0

/-- `compute_incremental_outcome_aggregate` for one draw and one cell,
`meridian/analysis/analyzer.py:2229-2295`. -/
noncomputable def incAggregate (ctx : Ctx) (d : Data) (a : Args) (n : ℕ) (useKpiArg byReach : Bool)
    (s0 s1 : ℝ) (i j : ℕ) (p : Params) : List ℝ :=
  withTotal ((List.range n).map fun m => cell ctx (nTimesOutput ctx d.nMediaTimes) a i j fun g t =>
    incrementalOutcome ctx p d a.baseline s0 s1 (fun _ => true) byReach true
      (Mmm.useKpi ctx useKpiArg) g t m)

/-- `optimal_frequency` broadcast to the organic channels, `meridian/analysis/tensors.py:1054-1065`: one
frequency serves all, otherwise the numbers of channels must agree. -/
def organicShapeOk (ctx : Ctx) : Bool :=
  decide (ctx.organicRf.n = 0 ∨ ctx.rf.n = 1 ∨ ctx.rf.n = ctx.organicRf.n)

/-- The data with reach at given frequencies, `meridian/analysis/tensors.py:1028-1073`; organic channels
are filled only with `include_non_paid_channels`. -/
noncomputable def reshown (ctx : Ctx) (d : Data) (f : ℕ → ℝ) : Data :=
  let fo : ℕ → ℝ := fun c => if ctx.rf.n = 1 then f 0 else f c
  { d with
    frequency := fun _ _ c => 1 * f c
    reach := fun g t c => d.reach g t c * d.frequency g t c / (1 * f c)
    organicFrequency := fun _ _ c => 1 * fo c
    organicReach := fun g t c => d.organicReach g t c * d.organicFrequency g t c / (1 * fo c) }

/-- The media units of all channels, `meridian/analysis/analyzer.py:2786-2810`: the last `nT` media
periods, and all periods of the non-media treatments. -/
noncomputable def units (ctx : Ctx) (D : Data) (nT : ℕ) : T3 :=
  let u : ℕ → ℕ := fun t => D.nMediaTimes - nT + t
  concat (nMediaLike ctx)
    (concat (ctx.media.n + ctx.rf.n + ctx.organicMedia.n)
      (concat (ctx.media.n + ctx.rf.n)
        (concat ctx.media.n (fun g t c => D.media g (u t) c)
          (fun g t c => D.reach g (u t) c * D.frequency g (u t) c))
        (fun g t c => D.organicMedia g (u t) c))
      (fun g t c => D.organicReach g (u t) c * D.organicFrequency g (u t) c))
    D.nonMedia

/-- `impressions_with_total` of one cell, `meridian/analysis/analyzer.py:2413-2428`. -/
noncomputable def impressionsWithTotal (ctx : Ctx) (d : Data) (a : Args) (i j : ℕ) : List ℝ :=
  withTotal ((List.range (nChannels ctx a)).map fun m =>
    cell ctx (nTimesOutput ctx d.nMediaTimes) a i j fun g t =>
      units ctx (a.opt.elim d (reshown ctx d)) (nTimesOutput ctx d.nMediaTimes) g t m)

/-- `spend_with_total` of one cell, `meridian/analysis/analyzer.py:2631-2666`. -/
noncomputable def spendWithTotal (ctx : Ctx) (d : Data) (spend : T3) (a : Args) (i j : ℕ) : List ℝ :=
  withTotal ((List.range (nPaid ctx)).map fun m =>
    cell ctx (nTimesOutput ctx d.nMediaTimes) a i j fun g t => spend g t m)

/-- The variables of the result, `meridian/analysis/analyzer.py:2589-2624, 2673-2690, 2715-2726`.
`modified` says that `new_data` has another number of periods: then the percentage of contribution is an
empty dataset (lines 2558, 2586). -/
def reported (a : Args) (modified : Bool) : List Var :=
  let contribution : List Var := if modified then [] else [.pctOfContribution]
  let spendData : List Var := [.impressions, .pctOfImpressions, .spend, .pctOfSpend, .cpm]
  if a.includeNonPaid then
    if a.aggregateTimes then [.incrementalOutcome] ++ contribution ++ [.effectiveness]
    else [.incrementalOutcome] ++ contribution
  else
    if a.aggregateTimes then
      spendData ++ [.incrementalOutcome] ++ contribution ++ [.roi, .effectiveness, .mroi, .cpik]
    else spendData ++ [.incrementalOutcome] ++ contribution

/-- A statistic over draws of a quotient of channel `m`. -/
noncomputable def statQuot (np : Np) (level : ℝ) (st : Stat) (draws : List Params)
    (num den : Params → ℝ) : Option ℝ :=
  statN np level st (draws.map fun p => quot (num p) (den p))

/-- `.where(ds.channel != ALL_CHANNELS)`: NaN for the total. -/
def maskTotal (n m : ℕ) (x : Option ℝ) : Option ℝ := if m = n then none else x

/-- `_compute_pct_of_contribution`, `meridian/analysis/analyzer.py:4370-4404`: every draw is divided by the
mean over draws of the expected outcome. -/
noncomputable def contribution (np : Np) (level : ℝ) (st : Stat) (draws : List Params)
    (inc expected : Params → ℝ) : Option ℝ :=
  statN np level st (draws.map fun p =>
    (quot (inc p) ((draws.map expected).sum / draws.length)).map (· * 100))

/-- The value of a variable in one cell, for the draws of one distribution.  The data of the spend has no
distribution and no statistic. -/
noncomputable def value (ctx : Ctx) (np : Np) (d : Data) (spend : T3) (a : Args) (draws : List Params)
    (st : Stat) (i j m : ℕ) : Var → Option ℝ :=
  let n := nChannels ctx a
  let impr := impressionsWithTotal ctx d a i j
  let sp := spendWithTotal ctx d spend a i j
  let uk := Mmm.useKpi ctx a.useKpi
  let inc := incAggregate ctx d a n uk true 0 1 i j
  let incM := incAggregate ctx d a n uk a.byReach 1 (1 + a.increase) i j
  let incKpi := incAggregate ctx d { a with baseline := fun _ => 0 } (nPaid ctx) true true 0 1 i j
  fun
  | .impressions => some (impr.getD m 0)
  | .pctOfImpressions => (quot (impr.getD m 0) (impr.getD n 0)).map (· * 100)
  | .spend => some (sp.getD m 0)
  | .pctOfSpend => (quot (sp.getD m 0) (sp.getD n 0)).map (· * 100)
  | .cpm => (quot (sp.getD m 0) (impr.getD m 0)).map (· * 1000)
  | .incrementalOutcome => some (stat np a.level st (draws.map fun p => (inc p).getD m 0))
  | .pctOfContribution => contribution np a.level st draws (fun p => (inc p).getD m 0) fun p =>
      cell ctx ctx.nTimes a i j (expectedOutcome ctx p d true uk)
  | .roi => statQuot np a.level st draws (fun p => (inc p).getD m 0) fun _ => sp.getD m 0
  | .effectiveness => maskTotal n m
      (statQuot np a.level st draws (fun p => (inc p).getD m 0) fun _ => impr.getD m 0)
  | .mroi => maskTotal n m
      (statQuot np a.level st draws (fun p => (incM p).getD m 0) fun _ => sp.getD m 0 * a.increase)
  | .cpik => statQuot np a.level st draws (fun _ => sp.getD m 0) fun p => (incKpi p).getD m 0

/-- The result of `summary_metrics`. -/
abbrev Table := Var → Option (Dist → Stat → ℕ → ℕ → ℕ → Option ℝ)

open Classical in
/-- `summary_metrics`, `meridian/analysis/analyzer.py:2297-2726`.  `d` is `new_data` completed with the
data of the model. -/
noncomputable def summaryMetrics (ctx : Ctx) (np : Np) (s : Samples) (d : Data) (spend : T3)
    (a : Args) : Except Err Table :=
  if a.includeNonPaid ∧ a.opt.isSome ∧ organicShapeOk ctx = false then .error .shape
  else
    match s.prior, s.posterior with
    | some prior, some posterior =>
      match checkFactors 1 (1 + a.increase) with
      | .error _ => .error .factors
      | .ok () => .ok fun v =>
          if v ∈ reported a (decide (d.nMediaTimes ≠ ctx.nMediaTimes)) then
            some fun dist st i j m => value ctx np d spend a
              (match dist with | .prior => prior | .posterior => posterior) st i j m v
          else none
    | _, _ => .error .notFitted

/-! ### The baseline -/

/-- The variables of the baseline table. -/
inductive BaseVar where
  | baselineOutcome
  | pctOfContribution
deriving DecidableEq

/-- `baseline_summary_metrics`, `meridian/analysis/analyzer.py:2821-2962`, with
`_calculate_baseline_expected_outcome` (lines 2185-2227). -/
noncomputable def baselineMetrics (ctx : Ctx) (np : Np) (s : Samples) (a : Args) :
    Except Err (BaseVar → Dist → Stat → ℕ → ℕ → Option ℝ) :=
  match s.prior, s.posterior with
  | some prior, some posterior => .ok fun v dist st i j =>
      let draws := match dist with | .prior => prior | .posterior => posterior
      let uk := Mmm.useKpi ctx a.useKpi
      let base := fun p => cell ctx ctx.nTimes a i j
        (expectedOutcome ctx p (baselineData ctx a.baseline) true uk)
      match v with
      | .baselineOutcome => some (stat np a.level st (draws.map base))
      | .pctOfContribution => contribution np a.level st draws base fun p =>
          cell ctx ctx.nTimes a i j (expectedOutcome ctx p ctx.data true uk)
  | _, _ => .error .notFitted

/-! ### The optimal frequency -/

/-- The arguments of `optimal_freq`, `meridian/analysis/analyzer.py:2964-2974`. -/
structure FreqArgs where
  maxFrequency : Option ℝ := none
  grid : Option (List ℝ) := none
  usePosterior : Bool := true
  useKpi : Bool := false
  gi : Option (List ℕ) := none
  ti : Option (List ℕ) := none
  level : ℝ := 9 / 10

open Classical in
/-- The frequency grid, `meridian/analysis/analyzer.py:3074-3078`; `historicalMax` is the largest frequency
of the data.  `np.arange(1, max_freq, 0.1)`. -/
noncomputable def freqGrid (historicalMax : ℝ) (a : FreqArgs) : List ℝ :=
  let maxFreq := if a.maxFrequency.getD 0 ≠ 0 then a.maxFrequency.getD 0 else historicalMax
  a.grid.getD ((List.range ⌈(maxFreq - 1) / (1 / 10)⌉.toNat).map fun k : ℕ => 1 + (k : ℝ) * (1 / 10))

/-- The ROI of reach and frequency channel `c` in one draw, all channels at one frequency,
`meridian/analysis/analyzer.py:3087-3106`. -/
noncomputable def freqRoi (ctx : Ctx) (d : Data) (rfSpend : T3) (a : FreqArgs) (f : ℝ) (c : ℕ)
    (p : Params) : ℝ :=
  total ctx (fun g t => incrementalOutcome ctx p (dummyMedia (atFrequency d fun _ => f)) (fun _ => 0) 0 1
    (fun _ => true) true true (Mmm.useKpi ctx a.useKpi) g t (ctx.media.n + c)) a.gi a.ti
    / total ctx (fun g t => rfSpend g t c) a.gi a.ti

/-- The optimised quantities of the report. -/
inductive FreqVar where
  | incrementalOutcome
  | roi
  | effectiveness
  | mroiByReach
  | mroiByFrequency
  | cpik
deriving DecidableEq

/-- The result of `optimal_freq`. -/
structure FreqReport where
  grid : List ℝ
  roi : ℕ → ℕ → Stat → ℝ
  optimal : List ℝ
  optimized : FreqVar → ℕ → Stat → Option ℝ
  level : ℝ

/-- The variable of the summary behind an optimised quantity, and whether the next dollar goes to reach,
`meridian/analysis/analyzer.py:3120-3175`. -/
def FreqVar.source : FreqVar → Var × Bool
  | .incrementalOutcome => (.incrementalOutcome, true)
  | .roi => (.roi, true)
  | .effectiveness => (.effectiveness, true)
  | .mroiByReach => (.mroi, true)
  | .mroiByFrequency => (.mroi, false)
  | .cpik => (.cpik, true)

/-- Spend by paid channel with the dummy media spend, `meridian/analysis/tensors.py:1092-1105`. -/
noncomputable def dummySpend (ctx : Ctx) (rfSpend : T3) : T3 :=
  concat ctx.media.n (fun _ _ _ => 1) rfSpend

open Classical in
/-- `optimal_freq`, `meridian/analysis/analyzer.py:2964-3204`, for data with the periods of the model.
The two calls of `summary_metrics` (lines 3120-3139) pass neither `confidence_level` nor `batch_size`.
ROI values are finite (spend is not zero), so no cell of the grid is NaN. -/
noncomputable def optimalFreqReport (ctx : Ctx) (np : Np) (s : Samples) (d : Data) (rfSpend : T3)
    (historicalMax : ℝ) (a : FreqArgs) : Except Err FreqReport :=
  let dist : Dist := if a.usePosterior then .posterior else .prior
  if ctx.rf.n = 0 then .error .noRfChannels
  else
    match s.group dist with
    | none => .error .notFitted
    | some draws =>
      let grid := freqGrid historicalMax a
      let roi : ℕ → ℕ → Stat → ℝ := fun k c st =>
        stat np a.level st (draws.map (freqRoi ctx d rfSpend a (grid.getD k 0) c))
      let columns := (List.range ctx.rf.n).map fun c =>
        nanargmax ((List.range grid.length).map fun k => some (roi k c .mean))
      if columns.any (·.isNone) then .error .emptyGrid
      else
        let optimal := columns.map fun i => grid.getD (i.getD 0) 0
        let D := dummyMedia (atFrequency d fun c => optimal.getD c 0)
        let args : Bool → Args := fun byReach =>
          { gi := a.gi, ti := a.ti, useKpi := Mmm.useKpi ctx a.useKpi, byReach := byReach }
        match summaryMetrics ctx np s D (dummySpend ctx rfSpend) (args true),
            summaryMetrics ctx np s D (dummySpend ctx rfSpend) (args false) with
        | .ok tReach, .ok tFreq => .ok
            { grid := grid
              roi := roi
              optimal := optimal
              optimized := fun v c st =>
                match (if v.source.2 then tReach else tFreq) v.source.1 with
                | some x => x dist st 0 0 (ctx.media.n + c)
                | none => none
              level := a.level }
        | .error e, _ => .error e
        | .ok _, .error e => .error e

end Verif.Summary
