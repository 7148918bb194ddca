import Mathlib.Data.List.Basic

/-!
# Settings that have no effect, and the warnings about them

Which prior distributions the samplers read, which are replaced for national models and for a KPI without revenue, and
what the warnings say: `meridian/model/context.py`, `meridian/model/prior_distribution.py`,
`meridian/model/posterior_sampler.py`, `meridian/model/prior_sampler.py`, `meridian/model/model.py`,
`meridian/analysis/analyzer.py`.
Distributions are values of a type `D`; what a sampler does is represented by the list of prior distributions that it
reads, with the parameter each is read for.
-/

namespace Verif.Announce

/-- The fields of `PriorDistribution`, `meridian/model/prior_distribution.py:277-512`. -/
inductive Param where
  | knotValues | sigma | tauG
  | alphaM | ecM | etaM | slopeM | roiM | mroiM | contributionM | betaM
  | alphaRf | ecRf | etaRf | slopeRf | roiRf | mroiRf | contributionRf | betaRf
  | alphaOm | ecOm | etaOm | slopeOm | contributionOm | betaOm
  | alphaOrf | ecOrf | etaOrf | slopeOrf | contributionOrf | betaOrf
  | gammaC | xiC | xiN | gammaN | contributionN
  deriving DecidableEq, Repr

/-- The prior types, `meridian/constants.py:243-246`. -/
inductive PType where
  | roi | mroi | coefficient | contribution
  deriving DecidableEq, Repr

/-- What the library of distributions gives: equality (`distributions_are_equal`), the default of each field, the
distribution that is always zero with its test, and the total media contribution prior. -/
structure Dists (D : Type) where
  eq : D → D → Bool
  default : Param → D
  zero : D
  isZero : D → Bool
  total : Param → D

/-- The model specification: effective prior types, prior distributions and the two settings that national models
ignore. -/
structure Cfg (D : Type) where
  media : PType
  rf : PType
  organicMedia : PType
  organicRf : PType
  nonMedia : PType
  prior : Param → D
  effects : String
  uniqueSigma : Bool

/-- What the data has. -/
structure Data where
  media : Bool
  rf : Bool
  organicMedia : Bool
  organicRf : Bool
  nonMedia : Bool
  controls : Bool
  national : Bool
  revenueKpi : Bool
  revenuePerKpi : Bool
  deriving DecidableEq

/-- What can be refused. -/
inductive Err where
  | mroiM | mroiRf | roiM | roiRf
  | priorType
  deriving DecidableEq, Repr

variable {D : Type}

/-! ### Building the model -/

/-- `IGNORED_PRIORS_MEDIA`, `meridian/constants.py:481-502`. -/
def ignoredMedia : PType → List Param
  | .roi => [.betaM, .mroiM, .contributionM]
  | .mroi => [.betaM, .roiM, .contributionM]
  | .contribution => [.betaM, .roiM, .mroiM]
  | .coefficient => [.roiM, .mroiM, .contributionM]

/-- `IGNORED_PRIORS_RF`, `meridian/constants.py:503-524`. -/
def ignoredRf : PType → List Param
  | .roi => [.betaRf, .mroiRf, .contributionRf]
  | .mroi => [.betaRf, .roiRf, .contributionRf]
  | .contribution => [.betaRf, .roiRf, .mroiRf]
  | .coefficient => [.roiRf, .mroiRf, .contributionRf]

/-- The names in the warnings of `_warn_setting_ignored_priors`, `meridian/model/context.py:699-727`: one warning for
media and one for reach and frequency, each if there is a name. -/
def announced (w : Dists D) (c : Cfg D) : List (List Param) :=
  [ignoredMedia c.media, ignoredRf c.rf].map
    (List.filter fun p => !w.eq (c.prior p) (w.default p)) |>.filter (· ≠ [])

/-- `_validate_mroi_priors_non_revenue`, `meridian/model/context.py:729-764`. -/
def mroiCheck (w : Dists D) (x : Data) (c : Cfg D) : Option Err :=
  if !x.revenueKpi && !x.revenuePerKpi then
    if x.media && c.media == .mroi && w.eq (c.prior .mroiM) (w.default .mroiM) then some .mroiM
    else if x.rf && c.rf == .mroi && w.eq (c.prior .mroiRf) (w.default .mroiRf) then some .mroiRf
    else none
  else none

/-- `_validate_roi_priors_non_revenue`, `meridian/model/context.py:766-818`: whether the total media contribution
prior is used. -/
def useTotal (w : Dists D) (x : Data) (c : Cfg D) : Except Err Bool :=
  if !x.revenueKpi && !x.revenuePerKpi then
    let m := c.media == .roi && w.eq (c.prior .roiM) (w.default .roiM)
    let r := c.rf == .roi && w.eq (c.prior .roiRf) (w.default .roiRf)
    if (m && r) || (!x.media && r) || (!x.rf && m) then .ok true
    else if x.media && m then .error .roiM
    else if x.rf && r then .error .roiRf
    else .ok false
  else .ok false

/-- The constructor of the context, `meridian/model/context.py:103-106`. -/
def build (w : Dists D) (x : Data) (c : Cfg D) : Except Err Bool :=
  match mroiCheck w x c with
  | some e => .error e
  | none => useTotal w x c

/-! ### The prior distributions for the data -/

/-- The parameters that are set to zero for national models, `meridian/model/prior_distribution.py:764-767`,
`meridian/model/prior_distribution.py:786-790`, `meridian/model/prior_distribution.py:819-820` and
`meridian/model/prior_distribution.py:829-830`. -/
def zeroed : List Param := [.tauG, .etaM, .etaRf, .etaOm, .etaOrf, .xiC, .xiN]

/-- `_convert_to_deterministic_0_distribution`, `meridian/model/prior_distribution.py:1371-1402`. -/
def convert (w : Dists D) (d : D) : D := if w.isZero d then d else w.zero

/-- `PriorDistribution.broadcast`, `meridian/model/prior_distribution.py:596-981`, without the shapes. -/
def broadcast (w : Dists D) (x : Data) (total : Bool) (c : Cfg D) (p : Param) : D :=
  if x.national && decide (p ∈ zeroed) then convert w (c.prior p)
  else if total && (p == .roiM || p == .roiRf) then w.total p
  else c.prior p

/-- The names in the warnings of `broadcast` for a national model, `meridian/model/prior_distribution.py:1387-1395`. -/
def zeroWarnings (w : Dists D) (x : Data) (c : Cfg D) : List Param :=
  if x.national then zeroed.filter fun p => !w.isZero (c.prior p) else []

/-! ### What the samplers read -/

/-- The parameter of a paid channel by prior type: `meridian/model/posterior_sampler.py:316-328`. -/
def paidM : PType → Param
  | .coefficient => .betaM
  | .roi => .roiM
  | .mroi => .mroiM
  | .contribution => .contributionM

/-- The parameter of a reach and frequency channel by prior type, `meridian/model/posterior_sampler.py:385-396`. -/
def paidRf : PType → Param
  | .coefficient => .betaRf
  | .roi => .roiRf
  | .mroi => .mroiRf
  | .contribution => .contributionRf

/-- One of two parameters, for channels that are not paid: `meridian/model/posterior_sampler.py:452-470`. -/
def unpaid (coefficient contribution : Param) : PType → Except Err Param
  | .coefficient => .ok coefficient
  | .contribution => .ok contribution
  | _ => .error .priorType

/-- The parameters of a group of channels that are not paid: `base` and one of `a` (coefficient) and `b`
(contribution), if there is such a channel; `meridian/model/posterior_sampler.py:430-482`,
`meridian/model/posterior_sampler.py:484-535` and `meridian/model/posterior_sampler.py:571-612`. -/
def group (present : Bool) (base : List Param) (a b : Param) (t : PType) : Except Err (List Param) :=
  if present then
    match unpaid a b t with
    | .error e => .error e
    | .ok p => .ok (base ++ [p])
  else .ok []

/-- `_joint_dist_base_logic`, `meridian/model/posterior_sampler.py:264-602`: the prior distributions in the order in
which they are used. -/
def posteriorNames (x : Data) (c : Cfg D) : Except Err (List Param) :=
  match group x.organicMedia [.alphaOm, .ecOm, .etaOm, .slopeOm] .betaOm .contributionOm c.organicMedia,
    group x.organicRf [.alphaOrf, .ecOrf, .etaOrf, .slopeOrf] .betaOrf .contributionOrf c.organicRf,
    group x.nonMedia [.xiN] .gammaN .contributionN c.nonMedia with
  | .error e, _, _ => .error e
  | _, .error e, _ => .error e
  | _, _, .error e => .error e
  | .ok om, .ok orf, .ok n => .ok ([.knotValues, .sigma, .tauG]
    ++ (if x.media then [.alphaM, .ecM, .etaM, .slopeM, paidM c.media] else [])
    ++ (if x.rf then [.alphaRf, .ecRf, .etaRf, .slopeRf, paidRf c.rf] else [])
    ++ om ++ orf ++ (if x.controls then [.gammaC, .xiC] else []) ++ n)

/-- `PriorDistributionSampler.__call__`, `meridian/model/prior_sampler.py:611-705`: the prior type of organic reach and
frequency is that of organic media, line 461. -/
def priorNames (x : Data) (c : Cfg D) : Except Err (List Param) :=
  match group x.organicMedia [.alphaOm, .ecOm, .etaOm, .slopeOm] .betaOm .contributionOm c.organicMedia,
    group x.organicRf [.alphaOrf, .ecOrf, .etaOrf, .slopeOrf] .betaOrf .contributionOrf c.organicMedia,
    group x.nonMedia [.xiN] .gammaN .contributionN c.nonMedia with
  | .error e, _, _ => .error e
  | _, .error e, _ => .error e
  | _, _, .error e => .error e
  | .ok om, .ok orf, .ok n => .ok ([.tauG, .knotValues, .sigma] ++ (if x.controls then [.gammaC, .xiC] else [])
    ++ (if x.media then [.alphaM, .ecM, .etaM, .slopeM, paidM c.media] else [])
    ++ (if x.rf then [.alphaRf, .ecRf, .etaRf, .slopeRf, paidRf c.rf] else [])
    ++ om ++ orf ++ n)

/-- The distributions that a sampler of a new model uses. -/
def reads (names : Data → Cfg D → Except Err (List Param)) (w : Dists D) (x : Data) (c : Cfg D) :
    Except Err (List (Param × D)) :=
  match build w x c with
  | .error e => .error e
  | .ok total =>
    match names x c with
    | .error e => .error e
    | .ok l => .ok (l.map fun p => (p, broadcast w x total c p))

/-! ### Settings of national models -/

/-- `media_effects_dist`, `meridian/model/context.py:649-654`. -/
def effectiveEffects (x : Data) (c : Cfg D) : String := if x.national then "normal" else c.effects

/-- `unique_sigma_for_each_geo`, `meridian/model/context.py:656-664`. -/
def effectiveSigma (x : Data) (c : Cfg D) : Bool := if x.national then false else c.uniqueSigma

/-- `_warn_setting_national_args`, `meridian/model/model.py:97-107` and `meridian/model/model.py:226-230`.  The
comparison of the text by identity is modelled as equality. -/
def nationalWarnings (x : Data) (c : Cfg D) : List String :=
  if x.national then
    (if c.effects ≠ "normal" then ["media_effects_dist"] else []) ++
      (if c.uniqueSigma ≠ false then ["unique_sigma_for_each_geo"] else [])
  else []

/-! ### Arguments of the analyzer -/

/-- Values of arguments. -/
inductive Val where
  | none
  | bool (b : Bool)
  | names (l : List String)
  deriving DecidableEq

/-- `NATIONAL_ANALYZER_PARAMETERS_DEFAULTS`, `meridian/constants.py:271-273`. -/
def analyzerDefaults : List (String × Val) := [("aggregate_geos", .bool true), ("geos_to_include", .none)]

/-- `_warn_if_geo_arg_in_kwargs`, `meridian/analysis/analyzer.py:96-107`: the names in the warnings. -/
def geoWarnings (kwargs : List (String × Val)) : List String :=
  (kwargs.filter fun a =>
    match analyzerDefaults.lookup a.1 with
    | none => false
    | some d => decide (a.2 ≠ d)).map Prod.fst

/-- The warnings of the methods with both arguments for a national model, `meridian/analysis/analyzer.py:865-869`,
`meridian/analysis/analyzer.py:1345-1349` and `meridian/analysis/analyzer.py:1622-1626`. -/
def methodWarnings (aggregateGeos : Bool) (selectedGeos : Option (List String)) : List String :=
  geoWarnings [("aggregate_geos", .bool aggregateGeos),
    ("selected_geos", match selectedGeos with | none => .none | some l => .names l)]

/-- The axes of the result after those of the draws, `meridian/analysis/analyzer.py:695-701`. -/
def outputDims (aggregateGeos aggregateTimes hasMedia : Bool) : String :=
  (if aggregateGeos then "" else "g") ++ (if aggregateTimes then "" else "t") ++ (if hasMedia then "m" else "")

/-- `_use_kpi`, `meridian/analysis/analyzer.py:317-349`: whether the KPI is reported, and whether a warning is given. -/
def useKpi (x : Data) (request : Bool) : Bool × Bool :=
  if request && x.revenueKpi then (false, true)
  else (request || !x.revenuePerKpi, !request && !x.revenuePerKpi)

/-- `_check_kpi_transformation`, `meridian/analysis/analyzer.py:935-957`: whether a request is accepted. -/
def kpiAccepted (x : Data) (inverse request : Bool) : Bool := inverse || (useKpi x request).1

/-- The constructor of the input data sets the revenue per KPI for revenue, `meridian/data/input_data.py:579-602`: the
revenue per KPI afterwards, `given` that before (`none` if not given, whether it is 1 everywhere), and whether a warning
says that it is ignored. -/
def revenueWarning (revenueKpi : Bool) (given : Option Bool) : Bool := revenueKpi && given != some true

end Verif.Announce
