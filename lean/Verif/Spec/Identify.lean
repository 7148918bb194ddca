import Verif.Model.Identify

/-!
# Which data the checks are to refuse
-/

namespace Verif.Identify.Spec

/-- The groups of variables in the data. -/
def Present (c : Ctx) (g : Group) : Prop :=
  c.controls = some g ∨ c.nonMedia = some g ∨ c.media = some g ∨ c.reach = some g ∨
    c.organicMedia = some g ∨ c.organicReach = some g

/-- The standard deviation of `x 0, …, x (n-1)` is below `1e-4`: there is a mean, and the mean of the
squared deviations from it is below `1e-8`. -/
def NearlyConstant (n : ℕ) (x : ℕ → ℚ) : Prop :=
  ∃ m, n * m = ((List.range n).map x).sum ∧
    ((List.range n).map fun i => (x i - m) ^ 2).sum < n * (1 / 10 ^ 8)

/-- At each time the variable is the same in all geos. -/
def SameInAllGeos (c : Ctx) (g : Group) (v : ℕ) : Prop :=
  ∀ t < g.nTimes, NearlyConstant c.nGeos fun i => g.x i t v

/-- In each geo the variable is the same at all times. -/
def SameAtAllTimes (c : Ctx) (g : Group) (v : ℕ) : Prop :=
  ∀ i < c.nGeos, NearlyConstant g.nTimes fun t => g.x i t v

/-- The data has geos and times. -/
structure WF (c : Ctx) : Prop where
  geos : 0 < c.nGeos
  times : ∀ g, Present c g → 0 < g.nTimes

end Verif.Identify.Spec
