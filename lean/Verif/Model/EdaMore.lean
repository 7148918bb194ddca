import Verif.Model.Eda

/-!
# The informative exploratory checks

`meridian/model/eda/eda_engine.py`: correlation with population, explanatory power of geo and time,
numbers of data and parameters; `meridian/model/eda/sampling_eda_engine.py`: prior probabilities.
All of them report one or two findings without an issue, which are left out; what matters is the
artifact.  Exact real numbers, `none` is NaN; there are no NaNs in the data.
-/

namespace Verif.EdaMore

open Finset Verif.Eda

section
variable {ι κ : Type} [Fintype ι] [Fintype κ]

/-! ## Correlation with population -/

open Classical in
/-- Average ranks, as `scipy.stats.rankdata`: one plus the number of smaller values, and half of the
other values that are equal. -/
noncomputable def rank (x : Sample ι) : Sample ι := fun i =>
  (univ.filter fun j => x j < x i).card + (((univ.filter fun j => x j = x i).card : ℝ) + 1) / 2

/-- `_spearman_coeff`, `meridian/model/eda/eda_engine.py:560-563`: scipy's `spearmanr` correlates the
ranks; NaN if one of the two is constant. -/
noncomputable def spearman (x y : Sample ι) : Option ℝ := corr (rank x) (rank y)

/-! ## Explanatory power of a category -/

/-- The sum of squared residuals of `dep_var ~ C(regressor)`: least squares over all functions of the
category. -/
noncomputable def rssBy (c : ι → κ) (x : Sample ι) : ℝ :=
  sInf {r | ∃ h : κ → ℝ, r = ∑ i, (x i - h (c i)) ^ 2}

/-- R-squared of this regression. -/
noncomputable def rsq (c : ι → κ) (x : Sample ι) : ℝ := 1 - rssBy c x / ss x x

open Classical in
/-- `_calc_adj_r2`, `meridian/model/eda/eda_engine.py:537-557`, with `rsquared_adj` of statsmodels:
NaN for a constant variable, and without degrees of freedom.  Every category occurs. -/
noncomputable def adjRsq (c : ι → κ) (x : Sample ι) : Option ℝ :=
  if ∃ s, std1 x = some s ∧ s < 1 / 10000 then none
  else if Fintype.card ι = Fintype.card κ then none
  else some (1 - (Fintype.card ι - 1) / ((Fintype.card ι : ℝ) - Fintype.card κ) * (1 - rsq c x))

end

/-- A variable by geo and time. -/
abbrev Var (G T : ℕ) := Fin G → Fin T → ℝ

/-- The variable over all cells. -/
def cells {G T : ℕ} (v : Var G T) : Sample (Fin G × Fin T) := fun s => v s.1 s.2

/-- `ds.mean(dim=TIME)`. -/
noncomputable def timeMean {G T : ℕ} (v : Var G T) : Sample (Fin G) := fun g => (∑ t, v g t) / T

/-- `_calculate_population_corr`, `meridian/model/eda/eda_engine.py:2404-2459`: refused for national
data. -/
noncomputable def populationCorr {G T : ℕ} (pop : Sample (Fin G)) (ds : List (String × Var G T)) :
    Except Unit (List (String × Option ℝ)) :=
  if G = 1 then .error ()
  else .ok (ds.map fun v => (v.1, spearman (timeMean v.2) pop))

/-- `check_variable_geo_time_collinearity`, `meridian/model/eda/eda_engine.py:2349-2402`: name,
explained by geo, explained by time. -/
noncomputable def collinearity {G T : ℕ} (ds : List (String × Var G T)) :
    Except Unit (List (String × Option ℝ × Option ℝ)) :=
  if G = 1 then .error ()
  else .ok (ds.map fun v => (v.1, adjRsq Prod.fst (cells v.2), adjRsq Prod.snd (cells v.2)))

/-! ## Data and parameters -/

/-- `DataParameterRatioArtifact`, `meridian/model/eda/eda_outcome.py:265-301`. -/
structure Ratio where
  geos : ℕ
  times : ℕ
  knots : ℕ
  controls : ℕ
  treatments : ℕ

/-- `n_data_points`, `meridian/model/eda/eda_outcome.py:285-287`. -/
def Ratio.dataPoints (r : Ratio) : ℕ := r.geos * r.times

/-- `n_parameters`, `meridian/model/eda/eda_outcome.py:289-293`. -/
def Ratio.parameters (r : Ratio) : ℤ := ((r.geos : ℤ) - 1) + r.knots + r.controls + r.treatments

/-- `ratio`, `meridian/model/eda/eda_outcome.py:295-301`: `⊤` is infinity. -/
noncomputable def Ratio.ratio (r : Ratio) : WithTop ℝ :=
  if 0 < r.parameters then ((r.dataPoints / r.parameters : ℝ) : WithTop ℝ) else ⊤

/-! ## Prior probabilities -/

/-- What `check_prior_probability`, `meridian/model/eda/sampling_eda_engine.py:70-137`, uses: the
cells of KPI and revenue per KPI, and draws of the baseline and of the incremental outcome by
channel. -/
structure Prior where
  kpi : List ℝ
  revenuePerKpi : Option (List ℝ)
  channels : List String
  baseline : List ℝ
  /-- draws, each with one entry for each channel -/
  incremental : List (List ℝ)

/-- `total_outcome`, lines 82-87. -/
def Prior.total (p : Prior) : ℝ :=
  match p.revenuePerKpi with
  | some r => (p.kpi.zipWith (· * ·) r).sum
  | none => p.kpi.sum

/-- `negative_baseline_probability`, `meridian/analysis/analyzer.py:4716-4726`. -/
noncomputable def Prior.negativeBaseline (p : Prior) : ℝ :=
  ((p.baseline.filter fun b => decide (b < 0)).length : ℝ) / p.baseline.length

/-- `mean_prior_contribution_da`, lines 89-113: `⊤` is infinity. -/
noncomputable def Prior.contributions (p : Prior) : List (String × WithTop ℝ) :=
  p.channels.zipIdx.map fun c => (c.1,
    if p.total = 0 then ⊤
    else (((p.incremental.map fun d => d.getD c.2 0 / p.total).sum / p.incremental.length : ℝ) :
      WithTop ℝ))

end Verif.EdaMore
