import Mathlib.Analysis.Real.Sqrt
import Mathlib.Data.Fintype.BigOperators

/-!
# Specification: what makes data unfit for a fit

Independent of the model of the engine: elementary statements about columns of numbers.
-/

namespace Verif.Eda.Spec

open Finset

variable {ι : Type} [Fintype ι] {V : ℕ}

/-- The column takes at least two values. -/
def Varies (x : ι → ℝ) : Prop := ∃ s t, x s ≠ x t

/-- The average of the column. -/
noncomputable def avg (x : ι → ℝ) : ℝ := (∑ s, x s) / Fintype.card ι

/-- The total variation of the column around its average. -/
noncomputable def variation (x : ι → ℝ) : ℝ := ∑ s, (x s - avg x) ^ 2

/-- The common variation of two columns. -/
noncomputable def covariation (x y : ι → ℝ) : ℝ := ∑ s, (x s - avg x) * (y s - avg y)

/-- Correlation beyond a threshold, without division. -/
def Correlated (r : ℝ) (x y : ι → ℝ) : Prop :=
  Varies x ∧ Varies y ∧ r * Real.sqrt (variation x * variation y) < |covariation x y|

/-- One column is an affine function of the other. -/
def SameUpToUnits (x y : ι → ℝ) : Prop := ∃ a b, b ≠ 0 ∧ ∀ s, y s = a + b * x s

/-- The spread of the column is at least `τ` (root mean square deviation). -/
def Spread (τ : ℝ) (x : ι → ℝ) : Prop := τ ≤ Real.sqrt (variation x / Fintype.card ι)

/-- Column `i` can be predicted from the columns in `J`, up to less than the fraction `ε` of its
variation. -/
def PredictedUpTo (ε : ℝ) (x : Fin V → ι → ℝ) (J : Finset (Fin V)) (i : Fin V) : Prop :=
  ∃ (a : ℝ) (b : Fin V → ℝ),
    ∑ s, (x i s - (a + ∑ j ∈ J, b j * x j s)) ^ 2 < ε * variation (x i)

/-- Column `i` is a combination of the columns in `J` and a constant. -/
def Redundant (x : Fin V → ι → ℝ) (J : Finset (Fin V)) (i : Fin V) : Prop :=
  ∃ (a : ℝ) (b : Fin V → ℝ), ∀ s, x i s = a + ∑ j ∈ J, b j * x j s

/-- `J` are the other columns with a spread of at least `τ`. -/
def Regressors (τ : ℝ) (x : Fin V → ι → ℝ) (i : Fin V) (J : Finset (Fin V)) : Prop :=
  ∀ j, j ∈ J ↔ j ≠ i ∧ Spread τ (x j)

/-- Some pair of columns is correlated beyond `r`. -/
def SomePair (r : ℝ) (x : Fin V → ι → ℝ) : Prop := ∃ i j, i < j ∧ Correlated r (x i) (x j)

/-- Column `i` is predicted by the others up to less than `1 / θ` of its variation. -/
def Inflated (τ θ : ℝ) (x : Fin V → ι → ℝ) (i : Fin V) : Prop :=
  Spread τ (x i) ∧ Varies (x i) ∧
    ∃ J, Regressors τ x i J ∧ PredictedUpTo (1 / θ) x J i

/-- Some column is. -/
def SomeInflated (τ θ : ℝ) (x : Fin V → ι → ℝ) : Prop := ∃ i, Inflated τ θ x i

end Verif.Eda.Spec
