import Verif.Model.Transformers
import Mathlib.Analysis.Real.Sqrt
import Mathlib.Algebra.Order.Archimedean.Real.Basic
import Mathlib.Data.Fintype.BigOperators
import Mathlib.Algebra.BigOperators.Group.Finset.Basic

/-!
# The critical checks before sampling

`meridian/model/eda/eda_engine.py` (pairwise correlation, variance inflation factors, variability of
the KPI, `run_all_critical_checks`) and their use in `meridian/model/model.py`.

Simplifications.  Exact real numbers; `none` is NaN.  The variables are given as the stacked arrays
of the engine (`_stacked_treatment_control_scaled_da` and its national counterpart), their names as a
function of the position.  Texts of findings and the order of the rows in tables are left out.  An
exception in a check is a parameter.
-/

namespace Verif.Eda

open Finset

/-- A sample of a variable: `ι` are the times, or the geos and times. -/
abbrev Sample (ι : Type) := ι → ℝ

section Statistics

variable {ι : Type} [Fintype ι]

noncomputable def mean (x : Sample ι) : ℝ := (∑ i, x i) / Fintype.card ι

/-- Sum of the products of the deviations from the mean. -/
noncomputable def ss (x y : Sample ι) : ℝ := ∑ i, (x i - mean x) * (y i - mean y)

/-- `np.std(x)`: with the number of values. -/
noncomputable def std0 (x : Sample ι) : ℝ := Real.sqrt (ss x x / Fintype.card ι)

/-- `x.std(ddof=1)`: NaN for fewer than two values. -/
noncomputable def std1 (x : Sample ι) : Option ℝ :=
  if Fintype.card ι ≤ 1 then none else some (Real.sqrt (ss x x / (Fintype.card ι - 1)))

/-- `xr.corr`, called at `meridian/model/eda/eda_engine.py:220`: NaN if one of the two is constant. -/
noncomputable def corr (x y : Sample ι) : Option ℝ :=
  if std0 x * std0 y = 0 then none
  else some (ss x y / Fintype.card ι / (std0 x * std0 y))

/-- `abs(c) > threshold`. -/
def beyond (threshold : ℝ) : Option ℝ → Prop
  | none => False
  | some c => threshold < |c|

variable {V : ℕ}

open Classical in
/-- `_find_extreme_corr_pairs` on a correlation matrix without other dimensions,
`meridian/model/eda/eda_engine.py:255-277`, with `get_triangle_corr_mat`, 225-252. -/
noncomputable def extremePairs (x : Fin V → Sample ι) (threshold : ℝ) : List (Fin V × Fin V) :=
  ((List.finRange V) ×ˢ (List.finRange V)).filter fun p =>
    p.1 < p.2 ∧ beyond threshold (corr (x p.1) (x p.2))

/-- `np.std(np_data, axis=0) < std_threshold`, `meridian/model/eda/eda_engine.py:383`. -/
def Constant (stdThreshold : ℝ) (x : Sample ι) : Prop := std0 x < stdThreshold

open Classical in
/-- The variables against which variable `i` is regressed. -/
noncomputable def others (x : Fin V → Sample ι) (stdThreshold : ℝ) (i : Fin V) : Finset (Fin V) :=
  univ.filter fun j => j ≠ i ∧ ¬ Constant stdThreshold (x j)

/-- Sum of squared residuals for an intercept and coefficients. -/
noncomputable def residual (x : Fin V → Sample ι) (J : Finset (Fin V)) (i : Fin V) (a : ℝ)
    (b : Fin V → ℝ) : ℝ := ∑ s, (x i s - (a + ∑ j ∈ J, b j * x j s)) ^ 2

/-- Sum of squared residuals of the least squares fit. -/
noncomputable def rss (x : Fin V → Sample ι) (J : Finset (Fin V)) (i : Fin V) : ℝ :=
  sInf {r | ∃ a b, r = residual x J i a b}

open Classical in
/-- `_calculate_vif` for variable `i`, `meridian/model/eda/eda_engine.py:360-400`, with
`variance_inflation_factor` of statsmodels: `1 / (1 - R²)`. -/
noncomputable def vif (x : Fin V → Sample ι) (stdThreshold : ℝ) (i : Fin V) : Option (WithTop ℝ) :=
  if Constant stdThreshold (x i) then none
  else if ss (x i) (x i) = 0 then none
  else
    let r2 := 1 - rss x (others x stdThreshold i) i / ss (x i) (x i)
    if 1 - r2 = 0 then some ⊤ else some ((1 / (1 - r2) : ℝ) : WithTop ℝ)

/-- `vif > threshold`. -/
def vifBeyond (threshold : ℝ) : Option (WithTop ℝ) → Prop
  | none => False
  | some v => (threshold : WithTop ℝ) < v

open Classical in
/-- The variables with an extreme factor, `meridian/model/eda/eda_engine.py:2046-2051`, 2064-2067
and 2157-2161. -/
noncomputable def extremeVifs (x : Fin V → Sample ι) (stdThreshold threshold : ℝ) : List (Fin V) :=
  (List.finRange V).filter fun i => vifBeyond threshold (vif x stdThreshold i)

end Statistics

/-! ## Findings -/

inductive Severity
  | info
  | attention
  | error
deriving DecidableEq

inductive Cause
  | none
  | multicollinearity
  | variability
  | runtimeError
deriving DecidableEq

inductive CheckType
  | kpiInvariability
  | multicollinearity
  | pairwiseCorrelation
deriving DecidableEq

structure Finding where
  severity : Severity
  cause : Cause
deriving DecidableEq

structure Outcome where
  checkType : CheckType
  findings : List Finding
deriving DecidableEq

/-- `EDASpec`, `meridian/model/eda/eda_spec.py:58-154`, the parts used here, with the defaults. -/
structure Spec where
  kpiStd : ℝ := 1 / 10000
  corrOverall : ℝ := 999 / 1000
  corrGeo : ℝ := 999 / 1000
  corrNational : ℝ := 999 / 1000
  vifGeo : ℝ := 1000
  vifOverall : ℝ := 1000
  vifNational : ℝ := 1000
  vifStd : ℝ := 1 / 10000

/-- What the engine knows of a model. -/
structure Data where
  national : Bool
  G : ℕ
  T : ℕ
  V : ℕ
  name : Fin V → String
  /-- stacked scaled treatments and controls by geo and time -/
  byGeo : Fin V → Fin G → Fin T → ℝ
  /-- stacked scaled national treatments and controls -/
  byTime : Fin V → Fin T → ℝ
  /-- the raw KPI and the population -/
  kpi : Transformers.Panel
  population : ℕ → ℝ

/-- A variable over all geos and times. -/
def Data.overall (d : Data) (v : Fin d.V) : Sample (Fin d.G × Fin d.T) := fun s => d.byGeo v s.1 s.2

/-- `kpi_scaled_da`, `meridian/model/eda/eda_engine.py:1025-1033`. -/
noncomputable def Data.kpiScaled (d : Data) : Sample (Fin d.G × Fin d.T) := fun s =>
  Transformers.kpiForward (Transformers.kpiInit d.G d.T d.kpi d.population) d.kpi s.1 s.2

open Classical in
/-- One finding if the condition holds. -/
noncomputable def report (p : Prop) (f : Finding) : List Finding := if p then [f] else []

/-- The finding without an issue if there is no other. -/
def orInfo (fs : List Finding) : List Finding := if fs = [] then [⟨.info, .none⟩] else fs

open Classical in
/-- The extreme pairs of single geos that are not extreme overall,
`meridian/model/eda/eda_engine.py:1640-1653`: pairs are compared by name. -/
noncomputable def geoPairs (d : Data) (s : Spec) : List (Fin d.G × Fin d.V × Fin d.V) :=
  ((List.finRange d.G).flatMap fun g =>
      (extremePairs (fun v => d.byGeo v g) s.corrGeo).map fun p => (g, p)).filter fun q =>
    ¬ ∃ p ∈ extremePairs d.overall s.corrOverall,
      d.name p.1 = d.name q.2.1 ∧ d.name p.2 = d.name q.2.2

/-- `check_pairwise_corr`, `meridian/model/eda/eda_engine.py:1748-1759`, with
`check_geo_pairwise_corr`, 1591-1691, and `check_national_pairwise_corr`, 1693-1746. -/
noncomputable def checkPairwiseCorr (d : Data) (s : Spec) : Outcome :=
  ⟨.pairwiseCorrelation, orInfo (if d.national then
      report (extremePairs d.byTime s.corrNational ≠ []) ⟨.error, .multicollinearity⟩
    else
      report (extremePairs d.overall s.corrOverall ≠ []) ⟨.error, .multicollinearity⟩ ++
      report (geoPairs d s ≠ []) ⟨.attention, .multicollinearity⟩)⟩

open Classical in
/-- The extreme factors of single geos of variables that are not extreme overall,
`meridian/model/eda/eda_engine.py:2094-2101`. -/
noncomputable def geoVifs (d : Data) (s : Spec) : List (Fin d.G × Fin d.V) :=
  ((List.finRange d.G).flatMap fun g =>
      (extremeVifs (fun v => d.byGeo v g) s.vifStd s.vifGeo).map fun v => (g, v)).filter fun q =>
    ¬ ∃ v ∈ extremeVifs d.overall s.vifStd s.vifOverall, d.name v = d.name q.2

/-- `check_vif`, `meridian/model/eda/eda_engine.py:2205-2217`, with `check_geo_vif`, 2021-2135, and
`check_national_vif`, 2137-2203. -/
noncomputable def checkVif (d : Data) (s : Spec) : Outcome :=
  ⟨.multicollinearity, orInfo (if d.national then
      report (extremeVifs d.byTime s.vifStd s.vifNational ≠ []) ⟨.error, .multicollinearity⟩
    else
      report (extremeVifs d.overall s.vifStd s.vifOverall ≠ []) ⟨.error, .multicollinearity⟩ ++
      report (geoVifs d s ≠ []) ⟨.attention, .multicollinearity⟩)⟩

/-- `kpi_has_variability`, `meridian/model/eda/eda_engine.py:2219-2225`: NaN is not at least the
threshold. -/
def kpiHasVariability (d : Data) (s : Spec) : Prop := ∃ v, std1 d.kpiScaled = some v ∧ s.kpiStd ≤ v

open Classical in
/-- `check_overall_kpi_invariability`, `meridian/model/eda/eda_engine.py:2227-2258`. -/
noncomputable def checkKpi (d : Data) (s : Spec) : Outcome :=
  ⟨.kpiInvariability,
    [if kpiHasVariability d s then ⟨.info, .none⟩ else ⟨.error, .variability⟩]⟩

/-- `run_all_critical_checks`, `meridian/model/eda/eda_engine.py:2314-2347`: `raises` tells which
checks raise an exception. -/
noncomputable def criticalChecks (d : Data) (s : Spec) (raises : CheckType → Bool) : List Outcome :=
  [(CheckType.kpiInvariability, checkKpi d s), (.multicollinearity, checkVif d s),
    (.pairwiseCorrelation, checkPairwiseCorr d s)].map fun c =>
      if raises c.1 then ⟨c.1, [⟨.error, .runtimeError⟩]⟩ else c.2

/-- `_run_model_fitting_guardrail`, `meridian/model/model.py:1041-1070`: the checks with errors, none
if sampling may start. -/
noncomputable def guardrail (d : Data) (s : Spec) (raises : CheckType → Bool) :
    Except (List CheckType) Unit :=
  let bad := (criticalChecks d s raises).filter fun o => o.findings.any fun f => f.severity = .error
  if bad = [] then .ok () else .error (bad.map Outcome.checkType)

/-! ## When a model is made -/

inductive PriorType
  | roi
  | mroi
  | contribution
  | coefficient
deriving DecidableEq

inductive Kind
  | media
  | rf
  | organicMedia
  | organicRf
  | nonMedia
deriving DecidableEq

/-- `PAID_MEDIA_ROI_PRIOR_TYPES` for paid, `contribution` for the others,
`meridian/constants.py:258-262` and `meridian/model/model.py:677-725`. -/
def needsVariability (k : Kind) (p : PriorType) : Bool :=
  match k with
  | .media | .rf => decide (p = .roi) || decide (p = .mroi) || decide (p = .contribution)
  | .organicMedia | .organicRf | .nonMedia => decide (p = .contribution)

open Classical in
/-- `_validate_kpi_variability`, `meridian/model/model.py:671-725`: the first kind of treatment with an
objection. -/
noncomputable def validateKpi (d : Data) (s : Spec) (count : Kind → ℕ) (prior : Kind → PriorType) :
    Except Kind Unit :=
  if kpiHasVariability d s then .ok ()
  else match [Kind.media, .rf, .organicMedia, .organicRf, .nonMedia].find? fun k =>
      decide (0 < count k) && needsVariability k (prior k) with
    | none => .ok ()
    | some k => .error k

end Verif.Eda
