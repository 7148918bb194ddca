import Verif.Model.LogNormal
import Mathlib.Probability.Distributions.Gaussian.Real
import Mathlib.Probability.Moments.Variance

/-!
# Log-normal distributions and random returns
-/

namespace Verif.LogNormal.Spec

open MeasureTheory ProbabilityTheory

/-- The log-normal distribution: the law of the exponential of a normal variable with mean `mu` and
standard deviation `sigma`. -/
noncomputable def law (d : LN) : Measure ℝ :=
  (gaussianReal d.mu (d.sigma ^ 2).toNNReal).map Real.exp

/-- `q` is the quantile function of the standard normal distribution. -/
def IsNormalQuantile (q : ℝ → ℝ) : Prop :=
  ∀ p, 0 < p → p < 1 → (gaussianReal 0 1).real (Set.Iic (q p)) = p

end Verif.LogNormal.Spec
