import Mathlib.Data.Rat.Defs
import Mathlib.Algebra.Order.Ring.Rat
import Mathlib.Algebra.Order.Group.Unbundled.Abs

/-!
# What a reader takes from the scenario of an optimization report
-/

namespace Verif.ScenarioText.Spec

/-- A whole percentage obtained by dropping the decimals of `100 c`, up to an error of `tol` in the arithmetic. -/
def DropsDecimals (tol c : ℚ) (shown : ℤ) : Prop := (shown : ℚ) ≤ 100 * c + tol ∧ 100 * c - tol < shown + 1

/-- The last day of the last time period, which begins on day `stop` and lasts `interval` days. -/
def lastDay (stop interval : ℤ) : ℤ := stop + interval - 1

end Verif.ScenarioText.Spec
