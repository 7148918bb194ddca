import Mathlib.Algebra.BigOperators.Group.Finset.Basic
import Mathlib.Data.Real.Basic

/-!
# What it means to allocate a total

Vocabulary for the theorems of `Verif.Props.Spend`, independent of the model.
-/

namespace Verif.Spend.Spec

open Finset

/-- `a` allocates `total` over `nGeos × nTimes` cells in proportion to the weights `w`: the ratio of
any two cells is the ratio of their weights, and the cells add up to the total. -/
structure IsAllocation (nGeos nTimes : ℕ) (w : ℕ → ℕ → ℝ) (total : ℝ) (a : ℕ → ℕ → ℝ) : Prop where
  proportional : ∀ g < nGeos, ∀ t < nTimes, ∀ g' < nGeos, ∀ t' < nTimes,
    a g t * w g' t' = a g' t' * w g t
  conserved : ∑ g ∈ range nGeos, ∑ t ∈ range nTimes, a g t = total

/-- `a` splits `total` over `nGeos` geos by population. -/
structure SplitsByPopulation (nGeos : ℕ) (population : ℕ → ℝ) (total : ℝ) (a : ℕ → ℝ) : Prop where
  proportional : ∀ g < nGeos, ∀ h < nGeos, a g * population h = a h * population g
  conserved : ∑ g ∈ range nGeos, a g = total

/-- `i` is an index of a tensor of this shape. -/
def InShape (i shape : List ℕ) : Prop := List.Forall₂ (· < ·) i shape

end Verif.Spend.Spec
