import Verif.Model.Adstock
import Mathlib.Algebra.BigOperators.Group.Finset.Basic

/-!
# What adstock should compute

Written in terms of lags and calendar positions, with no windows, padding or reversed weights.
-/

namespace Verif.Adstock.Spec

open Finset

/-- Media at period `i` (possibly negative: before the data begins), zero outside the data. -/
def mediaAt (media : List ℝ) (i : ℤ) : ℝ := if 0 ≤ i then media.getD i.toNat 0 else 0

/-- Effect retained after `l` of `W` periods, relative to lag 0.  Geometric: `α ^ l`.  Binomial:
`(1 - l / W) ^ (1 / α - 1)`, whose limit at `α = 0` keeps lag 0 only. -/
noncomputable def retained (d : Decay) (α : ℝ) (W l : ℕ) : ℝ :=
  match d with
  | .geometric => α ^ l
  | .binomial => if α = 0 then (if l = 0 then 1 else 0) else (1 - (l : ℝ) / W) ^ (1 / α - 1)

/-- The share of the total effect at lag `l`. -/
noncomputable def weight (d : Decay) (α : ℝ) (W l : ℕ) : ℝ :=
  retained d α W l / ∑ j ∈ range W, retained d α W j

/-- The adstocked value at period `i` of a series: the weighted sum over `W` lags. -/
noncomputable def adstockAt (d : Decay) (α : ℝ) (W : ℕ) (media : List ℝ) (i : ℤ) : ℝ :=
  ∑ l ∈ range W, weight d α W l * mediaAt media (i - l)

/-- The decay function in force for channel `c`. -/
def decayOf (single : Decay ⊕ List Decay) (c : ℕ) : Decay :=
  match single with
  | .inl d => d
  | .inr ds => ds.getD c .geometric

/-- Number of lags used: `max_lag + 1`, but no more than the periods available. -/
def window (maxLag : ℕ) (media : List ℝ) : ℕ := min (maxLag + 1) media.length

end Verif.Adstock.Spec
