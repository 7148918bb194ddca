import Verif.Model.Mmm
import Mathlib.Analysis.SpecialFunctions.Exp
import Mathlib.Analysis.SpecialFunctions.Log.Basic

/-!
# The prior sampler and the joint distribution of the posterior sampler, for one draw

`meridian/model/prior_sampler.py`, `meridian/model/posterior_sampler.py`,
`meridian/model/equations.py` and `meridian/model/media.py`.

The random draws themselves are inputs: what is modelled is everything the samplers compute from
them.  An absent kind of treatment (a `None` tensor) is a kind with zero channels.  Values are real
numbers; the logarithm of a non-positive number is NaN in the code, and the theorems exclude it.
-/

namespace Verif.Sampler

open Verif.Mmm Verif.Transformers Finset

/-- The treatment prior types, `meridian/constants.py` (`TREATMENT_PRIOR_TYPE_*`). -/
inductive PriorType where
  | coefficient
  | roi
  | mroi
  | contribution
deriving DecidableEq

/-- Errors. -/
inductive Err where
  | unsupportedPriorType
deriving DecidableEq

/-- What the samplers read of `ModelContext` beyond `Ctx`: the media effects distribution
(`normal` or log-normal), the effective prior types, the calibration periods by media time and
channel, the spend by geo, time and channel (`InputData.allocated_media_spend`), the KPI, the
non-media baseline (`compute_non_media_treatments_baseline`), the knot weights, the baseline geo and
the holdout mask. -/
structure Setup where
  ctx : Ctx
  normal : Bool
  mediaPrior : PriorType
  rfPrior : PriorType
  organicMediaPrior : PriorType
  organicRfPrior : PriorType
  nonMediaPrior : PriorType
  calibration : Option (ℕ → ℕ → Bool)
  rfCalibration : Option (ℕ → ℕ → Bool)
  mediaSpend : T3
  rfSpend : T3
  kpi : Panel
  nonMediaBaseline : ℕ → ℝ
  nKnots : ℕ
  weights : ℕ → ℕ → ℝ
  baselineGeo : ℕ
  holdout : Option (ℕ → ℕ → Bool)

/-- The draws of one kind of media: `alpha`, `ec`, `eta`, `slope` and `coefficient` (`beta_m`), `roi`,
`mroi`, `contribution` by channel, and the standard normal deviations by geo and channel.  Only the
one of the four that belongs to the prior type is drawn and read. -/
structure KindDraw where
  alpha : ℕ → ℝ
  ec : ℕ → ℝ
  eta : ℕ → ℝ
  slope : ℕ → ℝ
  dev : ℕ → ℕ → ℝ
  coefficient : ℕ → ℝ
  roi : ℕ → ℝ
  mroi : ℕ → ℝ
  contribution : ℕ → ℝ

/-- One draw of everything. -/
structure Draw where
  knotValues : ℕ → ℝ
  sigma : ℕ → ℝ
  tauExclBaseline : List ℝ
  media : KindDraw
  rf : KindDraw
  organicMedia : KindDraw
  organicRf : KindDraw
  gammaC : ℕ → ℝ
  xiC : ℕ → ℝ
  gammaGcDev : ℕ → ℕ → ℝ
  xiN : ℕ → ℝ
  gammaGnDev : ℕ → ℕ → ℝ
  gammaN : ℕ → ℝ
  contributionN : ℕ → ℝ

/-! ### `meridian/data/input_data.py`, `meridian/model/media.py` -/

/-- `_aggregate_spend`, `meridian/data/input_data.py:78-100`: `calibration_period[-n_times:]`. -/
noncomputable def aggregateSpend (ctx : Ctx) (spend : T3) (cal : Option (ℕ → ℕ → Bool)) (c : ℕ) : ℝ :=
  match cal with
  | none => ∑ g ∈ range ctx.nGeos, ∑ t ∈ range ctx.nTimes, spend g t c
  | some k => ∑ g ∈ range ctx.nGeos, ∑ t ∈ range ctx.nTimes,
      spend g t c * if k (ctx.nMediaTimes - ctx.nTimes + t) c then 1 else 0

/-- `get_total_outcome`, `meridian/data/input_data.py:1107-1111`. -/
noncomputable def totalOutcome (s : Setup) : ℝ :=
  match s.ctx.data.revenuePerKpi with
  | none => ∑ g ∈ range s.ctx.nGeos, ∑ t ∈ range s.ctx.nTimes, s.kpi g t
  | some r => ∑ g ∈ range s.ctx.nGeos, ∑ t ∈ range s.ctx.nTimes, s.kpi g t * r g t

/-- `constants.MROI_FACTOR`, `meridian/constants.py:264`. -/
noncomputable def mroiFactor : ℝ := 1.01

/-- `_roi_calibration_scaled_counterfactual`, `meridian/model/media.py:37-58`. -/
noncomputable def calibrationCounterfactual (scaled : T3) (k : ℕ → ℕ → Bool) : T3 := fun g t c =>
  scaled g t c * if k t c then 0 else 1

/-- `prior_media_scaled_counterfactual` (and `prior_reach_scaled_counterfactual`),
`meridian/model/media.py:126-157, 279-307`. -/
noncomputable def priorCounterfactual (ty : PriorType) (cal : Option (ℕ → ℕ → Bool)) (scaled : T3) :
    Option T3 :=
  match ty with
  | .roi => cal.map fun k => calibrationCounterfactual scaled k
  | .mroi => some fun g t c => scaled g t c * mroiFactor
  | .contribution => none
  | .coefficient => none

/-- `prior_denominator`, the same lines.  It is `None` for coefficient priors, and not read then. -/
noncomputable def priorDenominator (ty : PriorType) (spend total : ℝ) : ℝ :=
  match ty with
  | .roi => spend
  | .mroi => spend * (mroiFactor - 1)
  | .contribution => total
  | .coefficient => 0

/-! ### `meridian/model/equations.py` -/

/-- The parameters of a kind of media with given coefficients by geo. -/
def KindDraw.params (l : KindDraw) (beta : ℕ → ℕ → ℝ) : MediaParams :=
  { alpha := l.alpha, ec := l.ec, slope := l.slope, beta := beta }

/-- `linear_predictor_counterfactual_difference_media`, `meridian/model/equations.py:298-340`.  The
counterfactual is transformed with the default saturation (`constants.HILL`), whatever the
specification of the model says. -/
noncomputable def counterfactualDifferenceMedia (ctx : Ctx) (cf : Option T3) (transformed : T3)
    (l : KindDraw) : T3 :=
  match cf with
  | none => transformed
  | some y => fun g t c =>
    |transformed g t c
      - adstockHillMedia ctx { ctx.media with sat := .inl .hill } (l.params fun _ _ => 0)
          ctx.nMediaTimes ctx.nTimes y g t c|

/-- `linear_predictor_counterfactual_difference_rf`, `meridian/model/equations.py:342-383`. -/
noncomputable def counterfactualDifferenceRf (ctx : Ctx) (cf : Option T3) (transformed : T3)
    (l : KindDraw) : T3 :=
  match cf with
  | none => transformed
  | some y => fun g t c =>
    |transformed g t c
      - adstockHillRf ctx { ctx.rf with sat := .inl .hill } (l.params fun _ _ => 0)
          ctx.nMediaTimes ctx.nTimes y ctx.data.frequency g t c|

/-- `incremental_outcome_gx_over_beta_gx`, `meridian/model/equations.py:431-446`. -/
noncomputable def outcomeOverBeta (ctx : Ctx) (diff : Panel) (g : ℕ) : ℝ :=
  ∑ t ∈ range ctx.nTimes,
    diff g t * (match ctx.data.revenuePerKpi with | none => 1 | some r => r g t)
      * ctx.population g * ctx.kpiT.std

/-- `calculate_beta_x` for one channel, `meridian/model/equations.py:385-469`. -/
noncomputable def calculateBeta (s : Setup) (isNonMedia : Bool) (incrementalOutcome : ℝ) (diff : Panel)
    (eta : ℝ) (dev : ℕ → ℝ) : ℝ :=
  let a := outcomeOverBeta s.ctx diff
  if isNonMedia || s.normal then
    (incrementalOutcome - ∑ g ∈ range s.ctx.nGeos, a g * dev g * eta) / ∑ g ∈ range s.ctx.nGeos, a g
  else
    Real.log incrementalOutcome
      - Real.log (∑ g ∈ range s.ctx.nGeos, a g * Real.exp (dev g * eta))

/-! ### `meridian/model/posterior_sampler.py` -/

/-- `beta_gm` from `beta_m`, `eta_m` and the deviations, `meridian/model/posterior_sampler.py:351-356`
(and the same lines for the other kinds). -/
noncomputable def geoCoefficient (normal : Bool) (beta eta dev : ℝ) : ℝ :=
  if normal then beta + eta * dev else Real.exp (beta + eta * dev)

/-- The adstock and Hill transformed media of the model, `meridian/model/posterior_sampler.py:310-317`. -/
noncomputable def transformedMediaOf (s : Setup) (l : KindDraw) : T3 :=
  adstockHillMedia s.ctx s.ctx.media (l.params fun _ _ => 0) s.ctx.nMediaTimes s.ctx.nTimes
    (scaleMedia s.ctx s.ctx.media s.ctx.data.media)

/-- `meridian/model/posterior_sampler.py:376-384`. -/
noncomputable def transformedRfOf (s : Setup) (l : KindDraw) : T3 :=
  adstockHillRf s.ctx s.ctx.rf (l.params fun _ _ => 0) s.ctx.nMediaTimes s.ctx.nTimes
    (scaleMedia s.ctx s.ctx.rf s.ctx.data.reach) s.ctx.data.frequency

/-- `meridian/model/posterior_sampler.py:444-451`. -/
noncomputable def transformedOrganicMediaOf (s : Setup) (l : KindDraw) : T3 :=
  adstockHillMedia s.ctx s.ctx.organicMedia (l.params fun _ _ => 0) s.ctx.nMediaTimes s.ctx.nTimes
    (scaleMedia s.ctx s.ctx.organicMedia s.ctx.data.organicMedia)

/-- `meridian/model/posterior_sampler.py:495-503`. -/
noncomputable def transformedOrganicRfOf (s : Setup) (l : KindDraw) : T3 :=
  adstockHillRf s.ctx s.ctx.organicRf (l.params fun _ _ => 0) s.ctx.nMediaTimes s.ctx.nTimes
    (scaleMedia s.ctx s.ctx.organicRf s.ctx.data.organicReach) s.ctx.data.organicFrequency

/-- The parameter drawn for a treatment, `meridian/model/posterior_sampler.py:318-329`. -/
def treatmentParameter (ty : PriorType) (l : KindDraw) (c : ℕ) : ℝ :=
  match ty with
  | .roi => l.roi c
  | .mroi => l.mroi c
  | .contribution => l.contribution c
  | .coefficient => l.coefficient c

/-- `beta_m`, `meridian/model/posterior_sampler.py:318-348`. -/
noncomputable def posteriorBetaM (s : Setup) (l : KindDraw) (c : ℕ) : ℝ :=
  if s.mediaPrior = .coefficient then l.coefficient c
  else
    let inc := treatmentParameter s.mediaPrior l c
      * priorDenominator s.mediaPrior (aggregateSpend s.ctx s.mediaSpend s.calibration c) (totalOutcome s)
    let diff := counterfactualDifferenceMedia s.ctx
      (priorCounterfactual s.mediaPrior s.calibration (scaleMedia s.ctx s.ctx.media s.ctx.data.media))
      (transformedMediaOf s l) l
    calculateBeta s false inc (fun g t => diff g t c) (l.eta c) (fun g => l.dev g c)

/-- `beta_rf`, `meridian/model/posterior_sampler.py:386-415`. -/
noncomputable def posteriorBetaRf (s : Setup) (l : KindDraw) (c : ℕ) : ℝ :=
  if s.rfPrior = .coefficient then l.coefficient c
  else
    let inc := treatmentParameter s.rfPrior l c
      * priorDenominator s.rfPrior (aggregateSpend s.ctx s.rfSpend s.rfCalibration c) (totalOutcome s)
    let diff := counterfactualDifferenceRf s.ctx
      (priorCounterfactual s.rfPrior s.rfCalibration (scaleMedia s.ctx s.ctx.rf s.ctx.data.reach))
      (transformedRfOf s l) l
    calculateBeta s false inc (fun g t => diff g t c) (l.eta c) (fun g => l.dev g c)

/-- `beta_om`, `meridian/model/posterior_sampler.py:452-468`. -/
noncomputable def posteriorBetaOm (s : Setup) (l : KindDraw) : Except Err (ℕ → ℝ) :=
  match s.organicMediaPrior with
  | .coefficient => .ok l.coefficient
  | .contribution => .ok fun c =>
    calculateBeta s false (l.contribution c * totalOutcome s)
      (fun g t => transformedOrganicMediaOf s l g t c) (l.eta c) (fun g => l.dev g c)
  | _ => .error .unsupportedPriorType

/-- `beta_orf`, `meridian/model/posterior_sampler.py:505-521`. -/
noncomputable def posteriorBetaOrf (s : Setup) (l : KindDraw) : Except Err (ℕ → ℝ) :=
  match s.organicRfPrior with
  | .coefficient => .ok l.coefficient
  | .contribution => .ok fun c =>
    calculateBeta s false (l.contribution c * totalOutcome s)
      (fun g t => transformedOrganicRfOf s l g t c) (l.eta c) (fun g => l.dev g c)
  | _ => .error .unsupportedPriorType

/-- The non-media baseline on the scale of the samplers: `non_media_transformer.forward(baseline)`, with
population scaling, `meridian/model/posterior_sampler.py:583-591`. -/
noncomputable def samplerBaseline (s : Setup) : T3 := fun g t c =>
  scaleCs s.ctx.nonMediaT (fun _ _ c => s.nonMediaBaseline c) true g t c

/-- `gamma_n`, `meridian/model/posterior_sampler.py:580-602`. -/
noncomputable def posteriorGammaN (s : Setup) (l : Draw) : Except Err (ℕ → ℝ) :=
  match s.nonMediaPrior with
  | .coefficient => .ok l.gammaN
  | .contribution => .ok fun c =>
    calculateBeta s true (l.contributionN c * totalOutcome s)
      (fun g t => scaleCs s.ctx.nonMediaT s.ctx.data.nonMedia true g t c - samplerBaseline s g t c)
      (l.xiN c) (fun g => l.gammaGnDev g c)
  | _ => .error .unsupportedPriorType

/-- The geo level coefficients of a kind. -/
noncomputable def withGeos (normal : Bool) (l : KindDraw) (beta : ℕ → ℝ) : MediaParams :=
  l.params fun g c => geoCoefficient normal (beta c) (l.eta c) (l.dev g c)

/-- A kind that may be absent: no channels, no error. -/
def present {α : Type} (n : ℕ) (absent : α) (x : Except Err α) : Except Err α :=
  if n = 0 then .ok absent else x

/-- `_compute_tau_g`, `meridian/model/posterior_sampler.py:156-183`. -/
def computeTauG (excl : List ℝ) (idx : ℕ) : List ℝ := excl.take idx ++ [0] ++ excl.drop idx

/-- `ModelSpec.baseline_geo`: an index, a name or `None`. -/
inductive BaselineGeo where
  | index (i : ℤ)
  | name (s : String)
  | default

/-- Errors of `baseline_geo_idx`. -/
inductive GeoErr where
  | outOfRange
  | notFound
deriving DecidableEq

/-- `backend.argmax`: the first position of the largest value. -/
def argmax : List ℚ → ℕ
  | [] => 0
  | a :: l => if a < l.getD (argmax l) a then argmax l + 1 else 0

/-- `ModelContext.baseline_geo_idx`, `meridian/model/context.py:666-690`. -/
def baselineGeoIdx (geos : List String) (population : List ℚ) : BaselineGeo → Except GeoErr ℕ
  | .index i => if i < 0 ∨ (geos.length : ℤ) ≤ i then .error .outOfRange else .ok i.toNat
  | .name s =>
    match geos.findIdx? (· == s) with
    | some i => .ok i
    | none => .error .notFound
  | .default => .ok (argmax population)

/-- `mu_t`, `meridian/model/posterior_sampler.py:279-283`. -/
noncomputable def muT (s : Setup) (knotValues : ℕ → ℝ) (t : ℕ) : ℝ :=
  ∑ k ∈ range s.nKnots, knotValues k * s.weights k t

/-- The parameters computed from one draw by the joint distribution, `_joint_dist_base_logic`,
`meridian/model/posterior_sampler.py:208-612`. -/
noncomputable def posterior (s : Setup) (l : Draw) : Except Err Params :=
  match present s.ctx.organicMedia.n (fun _ => 0) (posteriorBetaOm s l.organicMedia) with
  | .error e => .error e
  | .ok bom =>
    match present s.ctx.organicRf.n (fun _ => 0) (posteriorBetaOrf s l.organicRf) with
    | .error e => .error e
    | .ok borf =>
      match present s.ctx.nNonMedia (fun _ => 0) (posteriorGammaN s l) with
      | .error e => .error e
      | .ok gn => .ok
        { media := withGeos s.normal l.media (posteriorBetaM s l.media)
          rf := withGeos s.normal l.rf (posteriorBetaRf s l.rf)
          organicMedia := withGeos s.normal l.organicMedia bom
          organicRf := withGeos s.normal l.organicRf borf
          mu := muT s l.knotValues
          tau := fun g => (computeTauG l.tauExclBaseline s.baselineGeo).getD g 0
          gammaC := fun g c => l.gammaC c + l.xiC c * l.gammaGcDev g c
          gammaN := fun g c => gn c + l.xiN c * l.gammaGnDev g c }

/-- `y_pred`, `meridian/model/posterior_sampler.py:287-291, 528-612`: the media-like treatments are
concatenated and contracted with their coefficients. -/
noncomputable def yPred (s : Setup) (l : Draw) (p : Params) : Panel := fun g t =>
  let transformed := concat (s.ctx.media.n + s.ctx.rf.n + s.ctx.organicMedia.n)
    (concat (s.ctx.media.n + s.ctx.rf.n)
      (concat s.ctx.media.n (transformedMediaOf s l.media) (transformedRfOf s l.rf))
      (transformedOrganicMediaOf s l.organicMedia))
    (transformedOrganicRfOf s l.organicRf)
  p.tau g + p.mu t
    + ∑ m ∈ range (nMediaLike s.ctx), transformed g t m * combinedBeta s.ctx p g m
    + ∑ c ∈ range s.ctx.nControls, scaleCs s.ctx.controlsT s.ctx.data.controls true g t c * p.gammaC g c
    + ∑ n ∈ range s.ctx.nNonMedia,
        scaleCs s.ctx.nonMediaT s.ctx.data.nonMedia true g t n * p.gammaN g n

/-- The log density of `tfd.Normal`. -/
noncomputable def normalLogProb (mean sd x : ℝ) : ℝ :=
  -(((x - mean) / sd) ^ 2) / 2 - Real.log (Real.sqrt (2 * Real.pi)) - Real.log sd

/-- The log density of the likelihood node, `meridian/model/posterior_sampler.py:614-629`, at the pinned
KPI (`_pin_dist`, lines 724-735).  `sigma` is by geo (a single `sigma` is the constant function). -/
noncomputable def logLikelihood (s : Setup) (kpiScaled pred : Panel) (sigma : ℕ → ℝ) : ℝ :=
  match s.holdout with
  | some h => ∑ g ∈ range s.ctx.nGeos, ∑ t ∈ range s.ctx.nTimes,
      normalLogProb (if h g t then 0 else pred g t)
        (if h g t then 1 / Real.sqrt (2 * Real.pi) else sigma g) (if h g t then 0 else kpiScaled g t)
  | none => ∑ g ∈ range s.ctx.nGeos, ∑ t ∈ range s.ctx.nTimes,
      normalLogProb (pred g t) (sigma g) (kpiScaled g t)

/-- The log likelihood of a draw for the data of the model: `kpi_scaled` is the KPI transformed with the
`KpiTransformer` of the context, `meridian/model/context.py:646-647`. -/
noncomputable def drawLogLikelihood (s : Setup) (l : Draw) : Except Err ℝ :=
  match posterior s l with
  | .error e => .error e
  | .ok p => .ok (logLikelihood s (kpiForward s.ctx.kpiT s.kpi) (yPred s l p) l.sigma)

/-! ### `meridian/model/prior_sampler.py` -/

/-- `beta_m`, `_sample_media_priors`, `meridian/model/prior_sampler.py:141-190`. -/
noncomputable def priorBetaM (s : Setup) (l : KindDraw) (c : ℕ) : ℝ :=
  if s.mediaPrior = .coefficient then l.coefficient c
  else
    let param := match s.mediaPrior with
      | .roi => l.roi c
      | .mroi => l.mroi c
      | _ => l.contribution c
    let inc := param
      * priorDenominator s.mediaPrior (aggregateSpend s.ctx s.mediaSpend s.calibration c) (totalOutcome s)
    let transformed := adstockHillMedia s.ctx s.ctx.media (l.params fun _ _ => 0) s.ctx.nMediaTimes
      s.ctx.nTimes (scaleMedia s.ctx s.ctx.media s.ctx.data.media)
    let diff := counterfactualDifferenceMedia s.ctx
      (priorCounterfactual s.mediaPrior s.calibration (scaleMedia s.ctx s.ctx.media s.ctx.data.media))
      transformed l
    calculateBeta s false inc (fun g t => diff g t c) (l.eta c) (fun g => l.dev g c)

/-- `beta_rf`, `_sample_rf_priors`, `meridian/model/prior_sampler.py:251-304`. -/
noncomputable def priorBetaRf (s : Setup) (l : KindDraw) (c : ℕ) : ℝ :=
  if s.rfPrior = .coefficient then l.coefficient c
  else
    let param := match s.rfPrior with
      | .roi => l.roi c
      | .mroi => l.mroi c
      | _ => l.contribution c
    let inc := param
      * priorDenominator s.rfPrior (aggregateSpend s.ctx s.rfSpend s.rfCalibration c) (totalOutcome s)
    let transformed := adstockHillRf s.ctx s.ctx.rf (l.params fun _ _ => 0) s.ctx.nMediaTimes
      s.ctx.nTimes (scaleMedia s.ctx s.ctx.rf s.ctx.data.reach) s.ctx.data.frequency
    let diff := counterfactualDifferenceRf s.ctx
      (priorCounterfactual s.rfPrior s.rfCalibration (scaleMedia s.ctx s.ctx.rf s.ctx.data.reach))
      transformed l
    calculateBeta s false inc (fun g t => diff g t c) (l.eta c) (fun g => l.dev g c)

/-- `beta_om`, `_sample_organic_media_priors`, `meridian/model/prior_sampler.py:365-399`. -/
noncomputable def priorBetaOm (s : Setup) (l : KindDraw) : Except Err (ℕ → ℝ) :=
  match s.organicMediaPrior with
  | .coefficient => .ok l.coefficient
  | .contribution => .ok fun c =>
    calculateBeta s false (l.contribution c * totalOutcome s)
      (fun g t => adstockHillMedia s.ctx s.ctx.organicMedia (l.params fun _ _ => 0) s.ctx.nMediaTimes
        s.ctx.nTimes (scaleMedia s.ctx s.ctx.organicMedia s.ctx.data.organicMedia) g t c)
      (l.eta c) (fun g => l.dev g c)
  | _ => .error .unsupportedPriorType

/-- `beta_orf`, `_sample_organic_rf_priors`, `meridian/model/prior_sampler.py:461-496`: the prior type
read is the one of organic media. -/
noncomputable def priorBetaOrf (s : Setup) (l : KindDraw) : Except Err (ℕ → ℝ) :=
  match s.organicMediaPrior with
  | .coefficient => .ok l.coefficient
  | .contribution => .ok fun c =>
    calculateBeta s false (l.contribution c * totalOutcome s)
      (fun g t => adstockHillRf s.ctx s.ctx.organicRf (l.params fun _ _ => 0) s.ctx.nMediaTimes
        s.ctx.nTimes (scaleMedia s.ctx s.ctx.organicRf s.ctx.data.organicReach)
        s.ctx.data.organicFrequency g t c)
      (l.eta c) (fun g => l.dev g c)
  | _ => .error .unsupportedPriorType

/-- `gamma_n`, `_sample_non_media_treatments_priors`, `meridian/model/prior_sampler.py:548-587`. -/
noncomputable def priorGammaN (s : Setup) (l : Draw) : Except Err (ℕ → ℝ) :=
  match s.nonMediaPrior with
  | .coefficient => .ok l.gammaN
  | .contribution => .ok fun c =>
    calculateBeta s true (l.contributionN c * totalOutcome s)
      (fun g t => scaleCs s.ctx.nonMediaT s.ctx.data.nonMedia true g t c
        - scaleCs s.ctx.nonMediaT (fun _ _ c => s.nonMediaBaseline c) true g t c)
      (l.xiN c) (fun g => l.gammaGnDev g c)
  | _ => .error .unsupportedPriorType

/-- `_get_tau_g`, `meridian/model/prior_sampler.py:37-64`. -/
def getTauG (excl : List ℝ) (idx : ℕ) : List ℝ := excl.take idx ++ [0] ++ excl.drop idx

/-- The parameters computed from one draw by the prior sampler, `PriorDistributionSampler.__call__`,
`meridian/model/prior_sampler.py:589-706`. -/
noncomputable def prior (s : Setup) (l : Draw) : Except Err Params :=
  match present s.ctx.organicMedia.n (fun _ => 0) (priorBetaOm s l.organicMedia) with
  | .error e => .error e
  | .ok bom =>
    match present s.ctx.organicRf.n (fun _ => 0) (priorBetaOrf s l.organicRf) with
    | .error e => .error e
    | .ok borf =>
      match present s.ctx.nNonMedia (fun _ => 0) (priorGammaN s l) with
      | .error e => .error e
      | .ok gn => .ok
        { media := withGeos s.normal l.media (priorBetaM s l.media)
          rf := withGeos s.normal l.rf (priorBetaRf s l.rf)
          organicMedia := withGeos s.normal l.organicMedia bom
          organicRf := withGeos s.normal l.organicRf borf
          mu := fun t => ∑ k ∈ range s.nKnots, l.knotValues k * s.weights k t
          tau := fun g => (getTauG l.tauExclBaseline s.baselineGeo).getD g 0
          gammaC := fun g c => l.gammaC c + l.xiC c * l.gammaGcDev g c
          gammaN := fun g c => gn c + l.xiN c * l.gammaGnDev g c }

end Verif.Sampler
