import Verif.Model.Adstock
import Verif.Model.Priors
import Mathlib.MeasureTheory.Measure.WithDensity
import Mathlib.MeasureTheory.Constructions.BorelSpace.Real
import Mathlib.Analysis.SpecialFunctions.Log.Basic
import Mathlib.Analysis.SpecialFunctions.Exp

/-!
# A prior on the exponent of the binomial decay

`transform_non_negative_reals_distribution`, `meridian/model/adstock_hill.py:442-483`.  A distribution is a
measure on the real numbers, with a density where it has one; arithmetic is exact.  The bijectors and the
transformed distribution are those of TensorFlow Probability, as documented there.
-/

namespace Verif.AlphaPrior

open MeasureTheory

/-- A bijector: the map, its inverse and the logarithm of the derivative of the inverse. -/
structure Bijector where
  forward : ℝ → ℝ
  inverse : ℝ → ℝ
  inverseLogDet : ℝ → ℝ

/-- `backend.bijectors.Reciprocal()`, `meridian/model/adstock_hill.py:476`. -/
noncomputable def reciprocal : Bijector := ⟨fun x => 1 / x, fun y => 1 / y, fun y => -2 * Real.log |y|⟩

/-- `backend.bijectors.Shift(a)`, `meridian/model/adstock_hill.py:476`. -/
noncomputable def shift (a : ℝ) : Bijector := ⟨fun x => x + a, fun y => y - a, fun _ => 0⟩

/-- `backend.bijectors.Chain([f, g])`: first `g`, then `f`. -/
noncomputable def chain (f g : Bijector) : Bijector where
  forward := fun x => f.forward (g.forward x)
  inverse := fun y => g.inverse (f.inverse y)
  inverseLogDet := fun y => f.inverseLogDet y + g.inverseLogDet (f.inverse y)

/-- The bijector, `meridian/model/adstock_hill.py:475-477`. -/
noncomputable def unitMap : Bijector := chain reciprocal (shift 1)

/-- What is drawn from the result, `meridian/model/adstock_hill.py:479-483`: the image of a draw. -/
noncomputable def transformed (μ : Measure ℝ) : Measure ℝ := μ.map unitMap.forward

/-- `log_prob` of the result, given that of the argument. -/
noncomputable def logProb (logp : ℝ → ℝ) (y : ℝ) : ℝ := logp (unitMap.inverse y) + unitMap.inverseLogDet y

/-- How the validation of the priors sees the result, `meridian/model/prior_distribution.py:1457-1494`: its
quantiles are the images of those of the argument, in reverse order; it has none if the argument has none,
as a point mass (line 1460).  Simplified: the quantiles of a truncated normal distribution are taken to be
exact. -/
def seenAs (image : Priors.E → Priors.E) : Priors.Shape → Priors.Shape
  | .deterministic _ => .noQuantile
  | .truncated low high => .quantiles (image high) (image low)
  | .quantiles lo hi => .quantiles (image hi) (image lo)
  | .noQuantile => .noQuantile

end Verif.AlphaPrior
