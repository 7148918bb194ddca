import Verif.Model.Summary
import Mathlib.Data.String.Basic
import Mathlib.Data.List.Sort

/-!
# The adstock decay table and the Hill curve table

`Analyzer.adstock_decay` and `Analyzer.hill_curves`, `meridian/analysis/analyzer.py:351-458, 3763-4264`,
and `MediaEffects.hill_curves_dataframe`, `meridian/analysis/visualizer.py:48-69, 1007-1060`.

A table is a list of rows.  Numbers are real: the rounding of `np.arange` and `np.linspace` is not
modelled.  Media data are numbers: the removal of NaN values before the histogram is not modelled.
-/

namespace Verif.MediaCurves

open Verif.Mmm Verif.Adstock Verif.Summary

/-- Errors. -/
inductive Err where
  | notFitted
  | divisionByZero
  | nothingToConcatenate
  | binsNotPositive
deriving DecidableEq

/-- The types of channels that have a decay and a saturation. -/
inductive Kind where
  | media
  | rf
  | organicMedia
  | organicRf
deriving DecidableEq

/-- The channels of a type. -/
def kindOf (ctx : Ctx) : Kind → MediaKind
  | .media => ctx.media
  | .rf => ctx.rf
  | .organicMedia => ctx.organicMedia
  | .organicRf => ctx.organicRf

/-- The parameters of a type in one draw. -/
def paramsOf (p : Params) : Kind → MediaParams
  | .media => p.media
  | .rf => p.rf
  | .organicMedia => p.organicMedia
  | .organicRf => p.organicRf

/-- The columns with the statistics. -/
inductive Col where
  | mean
  | ciLo
  | ciHi
deriving DecidableEq

/-- The statistic of a column. -/
def Col.stat : Col → Stat
  | .mean => .mean
  | .ciLo => .ciLo
  | .ciHi => .ciHi

/-! ### Adstock decay -/

/-- One row of the table of `adstock_decay`. -/
structure DecayRow where
  channel : String
  time : ℝ
  dist : Dist
  value : Col → Option ℝ
  isInt : Bool

/-- `max(max_lag, 1)`, `meridian/analysis/analyzer.py:3785`. -/
def shownLag (maxLag : ℕ) : ℕ := max maxLag 1

/-- `steps_per_time_period`, `meridian/analysis/analyzer.py:3786-3792` with the constants 5 and 1000 of
`meridian/constants.py`. -/
def stepsPerPeriod (maxLag : ℕ) : ℕ := min 5 (1000 / shownLag maxLag)

/-- Number of time points, `np.arange(0, max_lag, step_size)`, `meridian/analysis/analyzer.py:3793-3794`. -/
def nTimes (maxLag : ℕ) : ℕ := shownLag maxLag * stepsPerPeriod maxLag

/-- Time point `k`. -/
noncomputable def timeAt (maxLag k : ℕ) : ℝ := (k : ℝ) / (stepsPerPeriod maxLag : ℝ)

/-- `window_size`, `meridian/analysis/analyzer.py:374-377`. -/
def windowOf (ctx : Ctx) : ℕ := min (ctx.maxLag + 1) ctx.nMediaTimes

/-- The unnormalised weight at a real lag, `meridian/model/adstock_hill.py:194-198`.  `none`: the base of
the binomial decay is negative (the power is then NaN, except for integer exponents). -/
noncomputable def weightAt (d : Decay) (alpha : ℝ) (windowSize : ℕ) (l : ℝ) : Option ℝ :=
  match d with
  | .geometric => some (alpha ^ l)
  | .binomial =>
    if 1 - l / windowSize < 0 then none
    else some (powExt (1 - l / windowSize) (mapAlphaBinomial alpha))

/-- `compute_decay_weights` for one channel and real lag, `meridian/model/adstock_hill.py:135-158`. -/
noncomputable def channelWeightAt (single : Decay ⊕ List Decay) (c : ℕ) (alpha : ℝ) (windowSize : ℕ)
    (l : ℝ) : Option ℝ :=
  match single with
  | .inl d => weightAt d alpha windowSize l
  | .inr ds =>
    if ds[c]? = some .binomial then weightAt .binomial alpha windowSize l
    else weightAt .geometric alpha windowSize l

/-- The decayed effect of the draws of a group, `meridian/analysis/analyzer.py:412-431`. -/
noncomputable def effects (ctx : Ctx) (kd : Kind) (c : ℕ) (l : ℝ) (draws : List Params) :
    List (Option ℝ) :=
  draws.map fun p => channelWeightAt (kindOf ctx kd).decay c ((paramsOf p kd).alpha c) (windowOf ctx) l

/-- The channels of a type with their names, in the alphabetic order of `pivot`. -/
def sortedChannels (ctx : Ctx) (names : Kind → ℕ → String) (kd : Kind) : List (String × ℕ) :=
  ((List.range (kindOf ctx kd).n).map fun c => (names kd c, c)).insertionSort fun a b => a.1 ≤ b.1

/-- The draws of a distribution. -/
def groupOf (dist : Dist) (prior posterior : List Params) : List Params :=
  match dist with
  | .prior => prior
  | .posterior => posterior

/-- One row. -/
noncomputable def decayRow (np : Np) (ctx : Ctx) (names : Kind → ℕ → String) (level : ℝ) (kd : Kind)
    (prior posterior : List Params) (c k : ℕ) (dist : Dist) : DecayRow where
  channel := names kd c
  time := timeAt ctx.maxLag k
  dist := dist
  value := fun col => statN np level col.stat
    (effects ctx kd c (timeAt ctx.maxLag k) (groupOf dist prior posterior))
  isInt := k % stepsPerPeriod ctx.maxLag = 0

/-- `_get_adstock_dataframe`, `meridian/analysis/analyzer.py:351-458`: the pivot sorts by channel, time
and distribution. -/
noncomputable def adstockFrame (np : Np) (ctx : Ctx) (names : Kind → ℕ → String) (level : ℝ)
    (prior posterior : List Params) (kd : Kind) : List DecayRow :=
  (sortedChannels ctx names kd).flatMap fun nc =>
    (List.range (nTimes ctx.maxLag)).flatMap fun k =>
      [Dist.posterior, Dist.prior].map fun dist =>
        decayRow np ctx names level kd prior posterior nc.2 k dist

/-- The types of channels the model has, in the order of `adstock_decay` and `hill_curves`. -/
def kinds (ctx : Ctx) : List Kind :=
  [Kind.media, .rf, .organicMedia, .organicRf].filter fun kd => 0 < (kindOf ctx kd).n

/-- `adstock_decay`, `meridian/analysis/analyzer.py:3763-3857`. -/
noncomputable def adstockDecay (np : Np) (ctx : Ctx) (names : Kind → ℕ → String) (s : Samples)
    (level : ℝ) : Except Err (List DecayRow) :=
  match s.prior, s.posterior with
  | some prior, some posterior =>
    if stepsPerPeriod ctx.maxLag = 0 then .error .divisionByZero
    else if kinds ctx = [] then .error .nothingToConcatenate
    else .ok ((kinds ctx).flatMap (adstockFrame np ctx names level prior posterior))
  | _, _ => .error .notFitted

/-! ### Hill curves -/

/-- One row of the curves. -/
structure HillRow where
  channel : String
  kind : Kind
  units : ℝ
  dist : Dist
  value : Col → ℝ

/-- One row of the histogram. -/
structure HistRow where
  channel : String
  kind : Kind
  scaled : ℝ
  count : ℝ
  start : ℝ
  stop : ℝ

/-- `constants.HILL_NUM_STEPS`. -/
def hillSteps : ℕ := 500

/-- What the model feeds to the Hill function, without adstock: scaled media, or frequency,
`meridian/analysis/analyzer.py:3893-3936`. -/
noncomputable def hillInput (ctx : Ctx) : Kind → T3
  | .media => scaleMedia ctx ctx.media ctx.data.media
  | .rf => ctx.data.frequency
  | .organicMedia => scaleMedia ctx ctx.organicMedia ctx.data.organicMedia
  | .organicRf => ctx.data.organicFrequency

/-- The factor from scaled media to media per capita, `population_scaled_median_m`
(`meridian/analysis/analyzer.py:4016-4023`); frequency has none. -/
def unitFactor (ctx : Ctx) (kd : Kind) (c : ℕ) : ℝ :=
  match kd with
  | .media => ctx.media.median c
  | .organicMedia => ctx.organicMedia.median c
  | _ => 1

/-- The values of one channel over geos and times. -/
def observations (ctx : Ctx) (x : T3) (c : ℕ) : List ℝ :=
  (List.range ctx.nGeos).flatMap fun g => (List.range ctx.nMediaTimes).map fun t => x g t c

/-- `np.max` of a list that is not empty. -/
noncomputable def largest : List ℝ → ℝ
  | [] => 0
  | x :: l => l.foldl max x

/-- `np.min` of a list that is not empty. -/
noncomputable def smallest : List ℝ → ℝ
  | [] => 0
  | x :: l => l.foldl min x

/-- `np.linspace(0, max, 500)[k]`, `meridian/analysis/analyzer.py:3943-3947`. -/
noncomputable def gridAt (ctx : Ctx) (kd : Kind) (c k : ℕ) : ℝ :=
  (k : ℝ) * (largest (observations ctx (hillInput ctx kd) c) / ((hillSteps - 1 : ℕ) : ℝ))

/-- One row of the curves. -/
noncomputable def hillRow (np : Np) (ctx : Ctx) (names : Kind → ℕ → String) (level : ℝ) (kd : Kind)
    (prior posterior : List Params) (c k : ℕ) (dist : Dist) : HillRow where
  channel := names kd c
  kind := kd
  units := gridAt ctx kd c k * unitFactor ctx kd c
  dist := dist
  value := fun col => stat np level col.stat
    ((groupOf dist prior posterior).map fun p =>
      hill (gridAt ctx kd c k) ((paramsOf p kd).ec c) ((paramsOf p kd).slope c))

/-- `_get_hill_curves_dataframe`, `meridian/analysis/analyzer.py:3859-4035`.  The channels keep the order
of the data; the column of the units is filled in that order, each value twice. -/
noncomputable def hillFrame (np : Np) (ctx : Ctx) (names : Kind → ℕ → String) (level : ℝ)
    (prior posterior : List Params) (kd : Kind) : List HillRow :=
  (List.range (kindOf ctx kd).n).flatMap fun c =>
    (List.range hillSteps).flatMap fun k =>
      [Dist.posterior, Dist.prior].map fun dist =>
        hillRow np ctx names level kd prior posterior c k dist

/-- The range of `np.histogram`: from the smallest to the largest value, widened by one half on both
sides when they are equal. -/
noncomputable def histRange (data : List ℝ) : ℝ × ℝ :=
  if smallest data = largest data then (smallest data - 1 / 2, largest data + 1 / 2)
  else (smallest data, largest data)

/-- Edge `i` of `n` bins of equal width. -/
noncomputable def edge (data : List ℝ) (n i : ℕ) : ℝ :=
  (histRange data).1 + i * (((histRange data).2 - (histRange data).1) / n)

open Classical in
/-- Number of values in bin `i`; the last bin is closed. -/
noncomputable def binCount (data : List ℝ) (n i : ℕ) : ℕ :=
  (data.filter fun x => edge data n i ≤ x ∧
    (x < edge data n (i + 1) ∨ i + 1 = n ∧ x ≤ edge data n (i + 1))).length

/-- `np.histogram(data, bins=n, density=True)[0][i]`. -/
noncomputable def density (data : List ℝ) (n i : ℕ) : ℝ :=
  (binCount data n i : ℝ) / (edge data n (i + 1) - edge data n i) / data.length

/-- All densities. -/
noncomputable def densities (data : List ℝ) (n : ℕ) : List ℝ :=
  (List.range n).map (density data n)

/-- `max_counts`, `meridian/analysis/analyzer.py:4081-4083`. -/
noncomputable def maxCounts (data : List ℝ) (n : ℕ) : ℝ :=
  if 0 < largest (densities data n) then largest (densities data n) else 1

/-- `_get_channel_hill_histogram_dataframe` for one channel, `meridian/analysis/analyzer.py:4037-4096`. -/
noncomputable def histChannel (name : String) (kd : Kind) (data : List ℝ) (n : ℕ) : List HistRow :=
  (List.range n).map fun i =>
    { channel := name, kind := kd
      scaled := density data n i / maxCounts data n
      count := density data n i
      start := edge data n i
      stop := edge data n (i + 1) }

/-- The data of the histogram of a channel: media per capita, or frequency,
`meridian/analysis/analyzer.py:4131-4205`. -/
noncomputable def histData (ctx : Ctx) (kd : Kind) (c : ℕ) : List ℝ :=
  observations ctx (fun g t c => hillInput ctx kd g t c * unitFactor ctx kd c) c

/-- `_get_hill_histogram_dataframe`, `meridian/analysis/analyzer.py:4098-4206`, in the order of the
code. -/
noncomputable def histFrame (ctx : Ctx) (names : Kind → ℕ → String) (n : ℕ) : List HistRow :=
  [Kind.rf, .media, .organicMedia, .organicRf].flatMap fun kd =>
    (List.range (kindOf ctx kd).n).flatMap fun c => histChannel (names kd c) kd (histData ctx kd c) n

/-- `hill_curves`, `meridian/analysis/analyzer.py:4208-4264`.  `np.histogram` rejects a number of bins
below one; without channels there is nothing to concatenate. -/
noncomputable def hillCurves (np : Np) (ctx : Ctx) (names : Kind → ℕ → String) (s : Samples) (level : ℝ)
    (nBins : ℤ) : Except Err (List HillRow × List HistRow) :=
  match s.prior, s.posterior with
  | some prior, some posterior =>
    if kinds ctx = [] then .error .nothingToConcatenate
    else if nBins < 1 then .error .binsNotPositive
    else .ok ((kinds ctx).flatMap (hillFrame np ctx names level prior posterior),
      histFrame ctx names nBins.toNat)
  | _, _ => .error .notFitted

/-! ### The visualizer -/

/-- The saturation written in the specification is `none`, as
`_get_channels_to_exclude` reads it, `meridian/analysis/visualizer.py:48-69`. -/
def satNone (k : MediaKind) (c : ℕ) : Bool :=
  match k.sat with
  | .inl s => s = .none
  | .inr l => l[c]? = some .none

/-- The names of the channels to exclude, `meridian/analysis/visualizer.py:1043-1058`. -/
def excluded (ctx : Ctx) (names : Kind → ℕ → String) : List String :=
  [Kind.media, .rf, .organicMedia, .organicRf].flatMap fun kd =>
    ((List.range (kindOf ctx kd).n).filter fun c => satNone (kindOf ctx kd) c).map (names kd)

/-- `hill_curves_dataframe`, `meridian/analysis/visualizer.py:1007-1060`, with the default of 25 bins. -/
noncomputable def hillCurvesDataframe (np : Np) (ctx : Ctx) (names : Kind → ℕ → String) (s : Samples)
    (level : ℝ) : Except Err (List HillRow × List HistRow) :=
  match hillCurves np ctx names s level 25 with
  | .error e => .error e
  | .ok (rows, hist) =>
    .ok (rows.filter fun r => r.channel ∉ excluded ctx names,
      hist.filter fun r => r.channel ∉ excluded ctx names)

/-- The rows `plot_hill_curves` keeps with `include_prior=False`: those whose distribution is
`posterior` (`meridian/analysis/visualizer.py:1375-1379`).  The rows of the histogram have no
distribution. -/
noncomputable def plotRows (t : List HillRow × List HistRow) (includePrior : Bool) :
    List HillRow × List HistRow :=
  if includePrior then t else (t.1.filter fun r => r.dist = .posterior, [])

end Verif.MediaCurves
