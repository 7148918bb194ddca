import Verif.Model.Health

/-!
# What the health score should be

A weighted mean of the scores of the checks that ran.
-/

namespace Verif.Health.Spec

open Verif.Review

/-- The score of the five components as numbers between 0 and 100, as documented: the baseline score
falls linearly from 100 to 0 between the thresholds. -/
noncomputable def baseline (review fail p : ℝ) : ℝ :=
  if p ≤ review then 100
  else if fail ≤ p then 0
  else 100 * (fail - p) / (fail - review)

/-- A logistic function of R-squared. -/
noncomputable def fit (r : ℝ) : ℝ := 100 / (1 + Real.exp (15 / 2 - 15 * r))

/-- The share of the channels that pass, to the power 2/5. -/
noncomputable def passing (pass total : ℕ) : ℝ :=
  if total = 0 then 100 else 100 * ((pass : ℝ) / total) ^ (2 / 5 : ℝ)

end Verif.Health.Spec
