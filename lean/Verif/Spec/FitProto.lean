import Verif.Model.FitProto
import Verif.Spec.FitData
import Verif.Spec.TimeCoordinates

/-!
# What the model fit message should contain
-/

namespace Verif.FitProto.Spec

open Verif.FitData (Ctx Chains)
open Verif.FitData.Spec (Describes)
open Verif.Accuracy (EvalSet)

/-- An estimate shows mean and interval of some draws at a level; or, if `there` does not hold, NaN. -/
def Shows (level : ℚ) (x : List (List Verif.Num)) («there» : Prop) (e : Estimate) : Prop :=
  e.probability = level ∧ («there» → Describes level x [e.value, e.lower, e.upper]) ∧
    (¬ «there» → e.value = none ∧ e.lower = none ∧ e.upper = none)

/-- Every geo of the model belongs, at time `i`, to the evaluation set; without a split there is nothing
to belong to. -/
def Covered (c : Ctx) (split : Bool) (e : EvalSet) (i : ℕ) : Prop :=
  match c.hold with
  | some held => split = true → ∀ g < c.geos.length, FitData.Spec.member held e g i = true
  | none => True

/-- The model and its dates fit together: one date per time, at least two, increasing; draws of both
outcomes; one geo if national. -/
structure Sound (c : Ctx) (national : Bool) (dates : List Calendar.CDate) : Prop where
  length : dates.length = c.times.length
  two : 2 ≤ dates.length
  valid : ∀ d ∈ dates, d.Valid
  increasing : TimeCoordinates.Spec.Increasing dates
  expected : ∀ k, FitData.Spec.SomeDraw (c.expected k)
  baseline : ∀ k, FitData.Spec.SomeDraw (c.baseline k)
  geo : national = true → c.geos.length = 1

end Verif.FitProto.Spec
