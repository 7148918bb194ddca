import Mathlib.Analysis.SpecialFunctions.Log.Basic
import Mathlib.Analysis.SpecialFunctions.Sqrt
import Mathlib.Algebra.BigOperators.Group.List.Basic

/-!
# Helpers for log-normal priors

`meridian/model/prior_distribution.py:1287-1435`.  Real arithmetic.
-/

namespace Verif.LogNormal

/-- `tfd.LogNormal(loc, scale)` for one element of the batch. -/
structure LN where
  mu : ℝ
  sigma : ℝ

/-- `lognormal_dist_from_mean_std`, `meridian/model/prior_distribution.py:1287-1311`, for one element
of the batch. -/
noncomputable def fromMeanStd (mean std : ℝ) : LN where
  mu := Real.log mean - 1 / 2 * Real.log ((std / mean) ^ 2 + 1)
  sigma := Real.sqrt (Real.log ((std / mean) ^ 2 + 1))

/-- The errors of `lognormal_dist_from_range`. -/
inductive Err where
  | range
  | mass

open Classical in
/-- `lognormal_dist_from_range`, `meridian/model/prior_distribution.py:1314-1368`, with one triple
`(low, high, mass_percent)` for every element of the batch (the inputs after broadcasting); `q` is
the quantile function of the standard normal distribution (line 1358). -/
noncomputable def fromRange (q : ℝ → ℝ) (args : List (ℝ × ℝ × ℝ)) : Except Err (List LN) :=
  if ¬ ((∀ a ∈ args, 0 < a.1) ∧ ∀ a ∈ args, a.1 < a.2.1) then .error .range
  else if ¬ ((∀ a ∈ args, 0 < a.2.2) ∧ ∀ a ∈ args, a.2.2 < 1) then .error .mass
  else .ok (args.map fun a =>
    let lower := 0.5 - a.2.2 / 2
    let upper := 0.5 + a.2.2 / 2
    let sigma := Real.log (a.2.1 / a.1) / (q upper - q lower)
    ⟨Real.log a.2.1 - q upper * sigma, sigma⟩)

/-- `P_MEAN`, `meridian/constants.py:604`. -/
noncomputable def pMean : ℝ := 0.4

/-- `P_SD`, `meridian/constants.py:606`. -/
noncomputable def pSd : ℝ := 0.2

/-- `_get_total_media_contribution_prior`, `meridian/model/prior_distribution.py:1404-1434`. -/
noncomputable def totalContribution (kpi : ℝ) (spend : List ℝ) : LN :=
  let roiMean := pMean * kpi / spend.sum
  let roiSd := pSd * kpi / Real.sqrt ((spend.map (· ^ 2)).sum)
  let sigma := Real.sqrt (Real.log (roiSd ^ 2 / roiMean ^ 2 + 1))
  ⟨Real.log (roiMean * Real.exp (-(sigma ^ 2) / 2)), sigma⟩

end Verif.LogNormal
