import Verif.Model.Num

/-!
# What the stabilised grid should be

A column of a spend grid has a number `k` of valid rows, with increasing spend, and NaN below.
-/

namespace Verif.Stabilize.Spec

/-- The first `k` of the `R` rows of the column have a spend, increasing with the row, the others
have none. -/
structure SpendColumn (R k : ℕ) (s : ℕ → ℚ) (spend : ℕ → Num) : Prop where
  le : k ≤ R
  valid : ∀ i < k, spend i = some (s i)
  nan : ∀ i, k ≤ i → i < R → spend i = none
  increasing : ∀ i j, i < j → j < k → s i < s j

/-- The outcome of no row exceeds that of the last row with a spend. -/
def LargestAtEnd (R k : ℕ) (outcome : ℕ → Num) (y : ℚ) : Prop :=
  outcome (k - 1) = some y ∧ ∀ i < R, ∀ v, outcome i = some v → v ≤ y

/-- The column has the same ROI `roi` in every row with a spend, and no outcome in the others. -/
def ConstantRoi (R k : ℕ) (s : ℕ → ℚ) (roi : ℚ) (col : ℕ → Num) : Prop :=
  (∀ i < k, col i = some (roi * s i)) ∧ ∀ i, k ≤ i → i < R → col i = none

end Verif.Stabilize.Spec
