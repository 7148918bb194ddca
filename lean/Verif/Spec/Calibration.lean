import Verif.Spec.Interval
import Verif.Spec.EdaStd
import Verif.Spec.Eda

/-!
# Specification: uncertain, implausible and unexplained channels

Independent of the model: what the narrowest interval with a given probability is, when the ROI of a
channel is uncertain or implausible, and when a channel moves with none of the controls.
-/

namespace Verif.Calibration.Spec

open Verif.Interval.Spec (inside)
open Verif.EdaStd.Spec (IsQuantile)
open Verif.Eda.Spec

/-- `w` is the width of the narrowest interval that holds more than the fraction `prob` of the
draws. -/
def Narrowest (prob : ℚ) (x : List ℚ) (w : ℚ) : Prop :=
  (∃ lo hi, hi - lo = w ∧ prob * x.length < inside x lo hi) ∧
  ∀ lo hi, prob * x.length < inside x lo hi → w ≤ hi - lo

/-- The median of the draws. -/
def IsMedian (x : List ℚ) (m : ℚ) : Prop := IsQuantile x (1 / 2) m

/-- `s` is the share of channel `i` in the spend: nothing if there is no spend at all. -/
def IsShare (spend : List ℚ) (i : ℕ) (s : ℚ) : Prop :=
  (0 < spend.sum ∧ s * spend.sum = spend.getD i 0) ∨ (spend.sum = 0 ∧ s = 0)

/-- The draws of a channel with the share `s` of the spend are uncertain: weighted with the share,
the narrowest interval is more than `threshold` times as wide, relative to the median, as the prior
one, relative to its median. -/
def Uncertain (threshold priorWidth prob : ℚ) (x : List ℚ) (s : ℚ) : Prop :=
  ∃ w m, Narrowest prob x w ∧ IsMedian x m ∧ m ≠ 0 ∧ threshold * (priorWidth * |m|) < s * w

/-- The average of the draws. -/
def IsMean (x : List ℚ) (m : ℚ) : Prop := m * x.length = x.sum

variable {G T : ℕ}

/-- A channel and a control both vary over time in geo `g`. -/
def Comparable (x z : Fin G → Fin T → ℝ) (g : Fin G) : Prop := Varies (x g) ∧ Varies (z g)

/-- The absolute correlation in geo `g` is below `r`, without division. -/
def Below (r : ℝ) (x z : Fin G → Fin T → ℝ) (g : Fin G) : Prop :=
  |covariation (x g) (z g)| < r * Real.sqrt (variation (x g) * variation (z g))

/-- The channel moves with none of the controls: wherever it can be compared with a control the
correlation is below `r`. -/
def Unrelated (r : ℝ) (x : Fin G → Fin T → ℝ) (zs : List (Fin G → Fin T → ℝ)) : Prop :=
  ∀ z ∈ zs, ∀ g, Comparable x z g → Below r x z g

/-- The channel can be compared with a control in some geo. -/
def SomewhereComparable (x : Fin G → Fin T → ℝ) (zs : List (Fin G → Fin T → ℝ)) : Prop :=
  ∃ z ∈ zs, ∃ g, Comparable x z g

/-- Two arrays are the same up to the units used in each geo. -/
def SameUnits (x y : Fin G → Fin T → ℝ) : Prop := ∀ g, ∃ a b, b ≠ 0 ∧ ∀ t, y g t = a + b * x g t

end Verif.Calibration.Spec
