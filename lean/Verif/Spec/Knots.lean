import Verif.Model.Knots
import Mathlib.Algebra.BigOperators.Group.Finset.Basic

/-! # What knot weights mean: piecewise linear interpolation of the knot values. -/

namespace Verif.Knots.Spec

open Finset

/-- `y` is the value at time `t` of the piecewise linear curve through the points
`(locs[j], v j)`, constant before the first and after the last knot. -/
def Interpolates (locs : List ℤ) (v : ℕ → ℚ) (t : ℤ) (y : ℚ) : Prop :=
  (∀ a, locs[0]? = some a → t ≤ a → y = v 0) ∧
  (∀ b, locs[locs.length - 1]? = some b → b ≤ t → y = v (locs.length - 1)) ∧
  ∀ j a b, locs[j]? = some a → locs[j + 1]? = some b → a ≤ t → t ≤ b →
    y = v j + ((t : ℚ) - a) / ((b : ℚ) - a) * (v (j + 1) - v j)

/-- The curve value the model computes at time `t`: knot values times column `t` of the weights. -/
def curve (w : ℕ → ℕ → ℚ) (n : ℕ) (v : ℕ → ℚ) (t : ℕ) : ℚ := ∑ k ∈ range n, w k t * v k

/-- Strictly increasing. -/
def StrictlyIncreasing (l : List ℤ) : Prop := l.Pairwise (· < ·)

end Verif.Knots.Spec
