import Verif.Model.LegacyKnots

/-!
# Specification: times where knots can be
-/

namespace Verif.LegacyKnots.Spec

/-- Every time but the first and the last two: where automatic knots can be. -/
def places (n : ℕ) : List ℤ := (List.range (n - 3)).map fun i : ℕ => (i : ℤ) + 1

/-- The knots that are neither at the first nor at the last time. -/
def inside (n : ℕ) (l : List ℤ) : List ℤ := l.filter fun k => decide (0 < k ∧ k < (n : ℤ) - 1)

/-- The information criterion with a scale. -/
def criterion (rss : List ℤ → ℚ) (scale : ℚ) (k : List ℤ) : ℚ := 2 * (k.length + 2) + rss k / scale

end Verif.LegacyKnots.Spec
