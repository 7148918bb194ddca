import Verif.Model.Adstock
import Verif.Model.Transformers
import Mathlib.Algebra.BigOperators.Group.Finset.Basic

/-!
# Model equations and the analyzer's outcome calculations, for one parameter draw

`meridian/model/equations.py`, `meridian/analysis/tensors.py` and `meridian/analysis/analyzer.py`.

Tensors are functions of natural number indices, used below their sizes.  An absent kind of
treatment (a `None` tensor) is a kind with zero channels.  Every function here acts on one draw;
draws are batched in `Verif.Model.Batching`.  Values are real numbers.
-/

namespace Verif.Mmm

open Verif.Adstock Verif.Transformers Finset

/-- A `(geo, time, channel)` tensor. -/
abbrev T3 := ℕ → ℕ → ℕ → ℝ

/-- The two saturation functions, `meridian/model/equations.py:97`. -/
inductive Sat where
  | hill
  | none
deriving DecidableEq

/-- The specification of one kind of media: number of channels, adstock decay
(`ModelContext.adstock_decay_spec`), saturation (`ModelContext.saturation_spec`), one for all
channels or one per channel, and the medians stored by its `MediaTransformer`. -/
structure MediaKind where
  n : ℕ
  decay : Decay ⊕ List Decay
  sat : Sat ⊕ List Sat
  median : ℕ → ℝ

/-- The parameters of one kind of media in one draw. -/
structure MediaParams where
  alpha : ℕ → ℝ
  ec : ℕ → ℝ
  slope : ℕ → ℝ
  beta : ℕ → ℕ → ℝ

/-- Unscaled treatment data with `nMediaTimes` media periods, `DataTensors`
(`meridian/analysis/tensors.py:245-291`). -/
structure Data where
  nMediaTimes : ℕ
  media : T3
  reach : T3
  frequency : T3
  organicMedia : T3
  organicReach : T3
  organicFrequency : T3
  nonMedia : T3
  controls : T3
  revenuePerKpi : Option Panel

/-- What the outcome calculations read of `ModelContext`. -/
structure Ctx where
  nGeos : ℕ
  nTimes : ℕ
  nMediaTimes : ℕ
  maxLag : ℕ
  hillBeforeAdstock : Bool
  media : MediaKind
  rf : MediaKind
  organicMedia : MediaKind
  organicRf : MediaKind
  nNonMedia : ℕ
  nControls : ℕ
  population : ℕ → ℝ
  nonMediaPopScaling : Option (ℕ → Bool)
  nonMediaT : ℕ → CS
  controlsT : ℕ → CS
  kpiT : Kpi
  kpiIsRevenue : Bool
  data : Data

/-- One draw of the parameters, `DistributionTensors` (`meridian/analysis/tensors.py:525-548`). -/
structure Params where
  media : MediaParams
  rf : MediaParams
  organicMedia : MediaParams
  organicRf : MediaParams
  mu : ℕ → ℝ
  tau : ℕ → ℝ
  gammaC : ℕ → ℕ → ℝ
  gammaN : ℕ → ℕ → ℝ

/-! ### `meridian/model/equations.py` -/

/-- The time series of one geo and channel. -/
def series (x : T3) (n g c : ℕ) : List ℝ := (List.range n).map fun t => x g t c

/-- Entry `t` of an adstock result.  (A shape error is read as zero; when it occurs is the subject
of `Verif.Adstock.Props.adstock_rejects`.) -/
noncomputable def entry (r : Except Adstock.Err (List ℝ)) (t : ℕ) : ℝ :=
  match r with
  | .ok l => l.getD t 0
  | .error _ => 0

/-- `AdstockTransformer.forward`, `meridian/model/adstock_hill.py:374-390`. -/
noncomputable def adstockForward (ctx : Ctx) (k : MediaKind) (alpha : ℕ → ℝ) (nIn nOut : ℕ)
    (x : T3) : T3 := fun g t c =>
  entry (adstock k.decay c (series x nIn g c) (alpha c) ctx.maxLag nOut) t

/-- `HillTransformer.forward`, `meridian/model/adstock_hill.py:422-439`. -/
noncomputable def hillForward (ec slope : ℕ → ℝ) (x : T3) : T3 := fun g t c =>
  hill (x g t c) (ec c) (slope c)

/-- The saturation mask, `meridian/model/equations.py:97-116`. -/
def mask (k : MediaKind) (c : ℕ) : Bool :=
  match k.sat with
  | .inl s => s = .hill
  | .inr l => l[c]? = some .hill

/-- `adstock_hill_media`, `meridian/model/equations.py:42-125`. -/
noncomputable def adstockHillMedia (ctx : Ctx) (k : MediaKind) (p : MediaParams) (nIn nOut : ℕ)
    (x : T3) : T3 :=
  if ctx.hillBeforeAdstock then
    adstockForward ctx k p.alpha nIn nOut fun g t c =>
      if mask k c then hillForward p.ec p.slope x g t c else x g t c
  else fun g t c =>
    let a := adstockForward ctx k p.alpha nIn nOut x
    if mask k c then hillForward p.ec p.slope a g t c else a g t c

/-- `adstock_hill_rf`, `meridian/model/equations.py:127-208`. -/
noncomputable def adstockHillRf (ctx : Ctx) (k : MediaKind) (p : MediaParams) (nIn nOut : ℕ)
    (reach frequency : T3) : T3 :=
  adstockForward ctx k p.alpha nIn nOut fun g t c =>
    reach g t c *
      if mask k c then hillForward p.ec p.slope frequency g t c else frequency g t c

/-! ### `meridian/analysis/tensors.py` -/

/-- `MediaTransformer.forward` channel by channel. -/
noncomputable def scaleMedia (ctx : Ctx) (k : MediaKind) (x : T3) : T3 := fun g t c =>
  mediaForward (k.median c) ctx.population (fun g t => x g t c) g t

/-- `CenteringAndScalingTransformer.forward` channel by channel. -/
noncomputable def scaleCs (cs : ℕ → CS) (x : T3) (pop : Bool) : T3 := fun g t c =>
  csForward (cs c) (fun g t => x g t c) pop g t

/-- `_scale_data_tensors`, `meridian/analysis/tensors.py:1445-1509`. -/
noncomputable def scaleData (ctx : Ctx) (d : Data) : Data :=
  { d with
    media := scaleMedia ctx ctx.media d.media
    reach := scaleMedia ctx ctx.rf d.reach
    organicMedia := scaleMedia ctx ctx.organicMedia d.organicMedia
    organicReach := scaleMedia ctx ctx.organicRf d.organicReach
    nonMedia := scaleCs ctx.nonMediaT d.nonMedia true
    controls := scaleCs ctx.controlsT d.controls true }

/-- The factor `1 + (scaling_factor - 1) * selected`, `meridian/analysis/tensors.py:1310-1312`. -/
noncomputable def multiplier (s : ℝ) (sel : ℕ → Bool) (t : ℕ) : ℝ :=
  1 + (s - 1) * if sel t then 1 else 0

/-- `_scale_tensors_by_multiplier`, `meridian/analysis/tensors.py:551-601`. -/
noncomputable def scaleByMultiplier (d : Data) (m : ℕ → ℝ) (byReach : Bool) : Data :=
  { d with
    media := fun g t c => d.media g t c * m t
    reach := fun g t c => if byReach then d.reach g t c * m t else d.reach g t c
    frequency := fun g t c => if byReach then d.frequency g t c else d.frequency g t c * m t
    organicMedia := fun g t c => d.organicMedia g t c * m t
    organicReach := fun g t c => if byReach then d.organicReach g t c * m t else d.organicReach g t c
    organicFrequency := fun g t c =>
      if byReach then d.organicFrequency g t c else d.organicFrequency g t c * m t }

/-- The non-media baseline on the normalised scale, `meridian/analysis/tensors.py:1320-1330`. -/
noncomputable def baselineNormalized (ctx : Ctx) (baseline : ℕ → ℝ) (c : ℕ) : ℝ :=
  scaleCs ctx.nonMediaT (fun _ _ c => baseline c) false 0 0 c

/-- The tensors of `build_counterfactual_inputs`, `meridian/analysis/tensors.py:1238-1369`. -/
noncomputable def counterfactual (ctx : Ctx) (d : Data) (s : ℝ) (sel : ℕ → Bool) (byReach : Bool)
    (baseline : ℕ → ℝ) (isBaseline : Bool) : Data :=
  let scaled := scaleData ctx (scaleByMultiplier d (multiplier s sel) byReach)
  if isBaseline then { scaled with nonMedia := fun _ _ c => baselineNormalized ctx baseline c }
  else scaled

/-- The population factor of a non-media channel, `meridian/analysis/tensors.py:1419-1430`. -/
def nonMediaFactor (ctx : Ctx) (g c : ℕ) : ℝ :=
  match ctx.nonMediaPopScaling with
  | some f => if f c then ctx.population g else 1
  | none => 1

/-- `build_baseline_inputs`, `meridian/analysis/tensors.py:1371-1443`, completed with the
historical values of the fields it leaves unset (`_fill_default_values`, lines 869-909). -/
def baselineData (ctx : Ctx) (baseline : ℕ → ℝ) : Data :=
  { ctx.data with
    media := fun _ _ _ => 0
    reach := fun _ _ _ => 0
    organicMedia := fun _ _ _ => 0
    organicReach := fun _ _ _ => 0
    nonMedia := fun g _ c => baseline c * nonMediaFactor ctx g c }

/-! ### `meridian/analysis/analyzer.py` -/

/-- Concatenation along the channel axis. -/
def concat (n : ℕ) (a b : T3) : T3 := fun g t c => if c < n then a g t c else b g t (c - n)

/-- Concatenation along the channel axis, for coefficients. -/
def concatB (n : ℕ) (a b : ℕ → ℕ → ℝ) : ℕ → ℕ → ℝ := fun g c => if c < n then a g c else b g (c - n)

/-- Total number of media-like channels. -/
def nMediaLike (ctx : Ctx) : ℕ := ctx.media.n + ctx.rf.n + ctx.organicMedia.n + ctx.organicRf.n

/-- `_get_transformed_media_and_beta`, transformed media,
`meridian/analysis/analyzer.py:510-593`. -/
noncomputable def transformedMedia (ctx : Ctx) (p : Params) (d : Data) (nOut : ℕ) : T3 :=
  concat (ctx.media.n + ctx.rf.n + ctx.organicMedia.n)
    (concat (ctx.media.n + ctx.rf.n)
      (concat ctx.media.n
        (adstockHillMedia ctx ctx.media p.media d.nMediaTimes nOut d.media)
        (adstockHillRf ctx ctx.rf p.rf d.nMediaTimes nOut d.reach d.frequency))
      (adstockHillMedia ctx ctx.organicMedia p.organicMedia d.nMediaTimes nOut d.organicMedia))
    (adstockHillRf ctx ctx.organicRf p.organicRf d.nMediaTimes nOut d.organicReach
      d.organicFrequency)

/-- `_get_transformed_media_and_beta`, coefficients. -/
def combinedBeta (ctx : Ctx) (p : Params) : ℕ → ℕ → ℝ :=
  concatB (ctx.media.n + ctx.rf.n + ctx.organicMedia.n)
    (concatB (ctx.media.n + ctx.rf.n) (concatB ctx.media.n p.media.beta p.rf.beta)
      p.organicMedia.beta)
    p.organicRf.beta

/-- `_get_kpi_means`, `meridian/analysis/analyzer.py:260-309`, on scaled data. -/
noncomputable def kpiMeans (ctx : Ctx) (p : Params) (d : Data) : Panel := fun g t =>
  p.tau g + p.mu t
    + ∑ m ∈ range (nMediaLike ctx), transformedMedia ctx p d ctx.nTimes g t m * combinedBeta ctx p g m
    + ∑ c ∈ range ctx.nControls, d.controls g t c * p.gammaC g c
    + ∑ n ∈ range ctx.nNonMedia, d.nonMedia g t n * p.gammaN g n

/-- `_use_kpi`, `meridian/analysis/analyzer.py:319-349`. -/
def useKpi (ctx : Ctx) (b : Bool) : Bool :=
  if b && ctx.kpiIsRevenue then false else b || ctx.data.revenuePerKpi.isNone

/-- Revenue per KPI of new data, or the historical one
(`_fill_default_values`, `meridian/analysis/tensors.py:869-909`; `inverse_outcome`,
`meridian/analysis/analyzer.py:1055-1056`). -/
noncomputable def revenue (ctx : Ctx) (d : Data) : Panel :=
  match d.revenuePerKpi with
  | some r => r
  | none => (ctx.data.revenuePerKpi.getD fun _ _ => 0)

/-- `expected_outcome` before the selection of cells, `meridian/analysis/analyzer.py:863-933`. -/
noncomputable def expectedOutcome (ctx : Ctx) (p : Params) (d : Data) (inverse useKpiArg : Bool) :
    Panel := fun g t =>
  let means := kpiMeans ctx p (scaleData ctx d)
  if inverse then
    let k := kpiInverse ctx.kpiT means g t
    if useKpi ctx useKpiArg then k else k * revenue ctx d g t
  else means g t

/-- `n_times_output` of `get_incremental_kpi`, `meridian/analysis/analyzer.py:996-1004`. -/
def nTimesOutput (ctx : Ctx) (nIn : ℕ) : ℕ := if nIn ≠ ctx.nMediaTimes then nIn else ctx.nTimes

/-- `get_incremental_kpi`, `meridian/analysis/analyzer.py:959-1026`. -/
noncomputable def incrementalKpi (ctx : Ctx) (p : Params) (d : Data) (baseNorm : ℕ → ℝ) : T3 :=
  concat (nMediaLike ctx)
    (fun g t m => transformedMedia ctx p d (nTimesOutput ctx d.nMediaTimes) g t m
      * combinedBeta ctx p g m)
    (fun g t n => (d.nonMedia g t n - baseNorm n) * p.gammaN g n)

/-- `inverse_outcome`, `meridian/analysis/analyzer.py:1028-1065`. -/
noncomputable def inverseOutcome (ctx : Ctx) (x : T3) (useKpiArg : Bool) (rev : Panel) : T3 :=
  fun g t c =>
    let kpi := kpiInverse ctx.kpiT (fun g t => x g t c) g t - kpiInverse ctx.kpiT (fun _ _ => 0) g t
    if useKpi ctx useKpiArg then kpi else rev g t * kpi

/-- `_incremental_outcome_impl` before the selection of cells,
`meridian/analysis/analyzer.py:1067-1173`. -/
noncomputable def incrementalImpl (ctx : Ctx) (p : Params) (d : Data) (baseNorm : ℕ → ℝ)
    (inverse useKpiArg : Bool) : T3 :=
  let x := incrementalKpi ctx p d baseNorm
  if inverse then inverseOutcome ctx x (useKpi ctx useKpiArg) (revenue ctx d) else x

/-- `incremental_outcome` with all kinds of channels and before the selection of cells,
`meridian/analysis/analyzer.py:1345-1441`.  `sel` are the selected media times.  The scenario
`Media_0` is only computed when its factor is not zero or some media time is not selected. -/
noncomputable def incrementalOutcome (ctx : Ctx) (p : Params) (d : Data) (baseline : ℕ → ℝ)
    (s0 s1 : ℝ) (sel : ℕ → Bool) (byReach inverse useKpiArg : Bool) : T3 :=
  let bn := baselineNormalized ctx baseline
  let out1 := incrementalImpl ctx p (counterfactual ctx d s1 sel byReach baseline false) bn inverse
    useKpiArg
  if s0 ≠ 0 ∨ ∃ t < d.nMediaTimes, sel t = false then
    let out0 := incrementalImpl ctx p (counterfactual ctx d s0 sel byReach baseline true) bn inverse
      useKpiArg
    fun g t c => out1 g t c - out0 g t c
  else out1

end Verif.Mmm
