import Mathlib.Data.Real.Basic
import Mathlib.Data.Rat.Cast.Order
import Mathlib.Algebra.BigOperators.Group.List.Basic
import Mathlib.Data.List.ReduceOption
import Verif.Spec.Interval

/-!
# Vocabulary for outliers and standard deviations
-/

namespace Verif.EdaStd.Spec

open Verif.Interval.Spec

/-- The quantile of `x` at the level `q`: with the values numbered from 0 in increasing order, the
value at the position `(n - 1) q`, interpolated between the two neighbours. -/
def IsQuantile (x : List ℚ) (q v : ℚ) : Prop :=
  ∃ (k : ℕ) (a b : ℚ), HasRank x k a ∧ HasRank x (min (k + 1) (x.length - 1)) b ∧
    (k : ℚ) ≤ ((x.length : ℚ) - 1) * q ∧ ((x.length : ℚ) - 1) * q < k + 1 ∧
    v = a + (((x.length : ℚ) - 1) * q - k) * (b - a)

/-- Tukey's rule: further from the quartiles than one and a half interquartile ranges. -/
def Outlying (x : List ℚ) (v : ℚ) : Prop :=
  ∃ q1 q3, IsQuantile x (1 / 4) q1 ∧ IsQuantile x (3 / 4) q3 ∧
    (v < q1 - 3 / 2 * (q3 - q1) ∨ q3 + 3 / 2 * (q3 - q1) < v)

/-- `s` is the sample standard deviation of the values. -/
def IsStd (x : List ℚ) (s : ℝ) : Prop :=
  2 ≤ x.length ∧ 0 ≤ s ∧ ∃ m : ℚ, m * x.length = x.sum ∧
    s ^ 2 * ((x.length : ℝ) - 1) = (((x.map fun a => (a - m) ^ 2).sum : ℚ) : ℝ)

/-- `y` are the values of `x` that are not outlying, in their order. -/
def Kept (x y : List ℚ) : Prop :=
  ∃ p : ℚ → Bool, (∀ v, p v = true ↔ ¬ Outlying x v) ∧ y = x.filter p

/-- Some series has a low standard deviation without its outliers. -/
def LowVariation (threshold : ℝ) (d : List (String × List (Option ℚ))) : Prop :=
  ∃ s ∈ d, ∃ y t, Kept s.2.reduceOption y ∧ IsStd y t ∧ t < threshold

/-- Some value is an outlier of its series. -/
def HasOutlier (d : List (String × List (Option ℚ))) : Prop :=
  ∃ s ∈ d, ∃ v, some v ∈ s.2 ∧ Outlying s.2.reduceOption v

/-- Cost and media units contradict each other: units for nothing, or money for no units. -/
def Contradictory (cost units : ℚ) : Prop := (cost = 0 ∧ 0 < units) ∨ (0 < cost ∧ units = 0)

/-- The costs per media unit over the periods with units. -/
def UnitCosts : List (Option ℚ × Option ℚ) → List ℚ
  | [] => []
  | (some c, some u) :: l => if u = 0 then UnitCosts l else c / u :: UnitCosts l
  | _ :: l => UnitCosts l

end Verif.EdaStd.Spec
