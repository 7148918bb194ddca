import Mathlib.MeasureTheory.Measure.MeasureSpaceDef
import Mathlib.MeasureTheory.Constructions.BorelSpace.Real
import Mathlib.Analysis.SpecialFunctions.Pow.Real

/-!
# What a prior on the exponent of the binomial decay should mean
-/

namespace Verif.AlphaPrior.Spec

open MeasureTheory

/-- A distribution on the non-negative numbers. -/
def NonNegative (μ : Measure ℝ) : Prop := μ {x | x < 0} = 0

/-- All values are in the range Meridian expects of `alpha`: above zero and at most one. -/
def InUnitRange (μ : Measure ℝ) : Prop := μ {a | ¬ (0 < a ∧ a ≤ 1)} = 0

/-- The weights of the binomial decay with exponent `e` at the lags `ls` of a window of `W` periods, before
normalisation. -/
noncomputable def binomialWeights (e : ℝ) (W : ℕ) (ls : List ℕ) : List ℝ :=
  ls.map fun (l : ℕ) => (1 - (l : ℝ) / W) ^ e

/-- The same, adding up to one. -/
noncomputable def normalised (w : List ℝ) : List ℝ := w.map (· / w.sum)

end Verif.AlphaPrior.Spec
