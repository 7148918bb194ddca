import Verif.Model.FitData

/-!
# What the comparison of expected and actual outcome should show
-/

namespace Verif.FitData.Spec

open Verif (Num)
open Verif.Accuracy (EvalSet)
open Verif.Interval (central)

/-- The total of one draw over some geos and times. -/
def total (d : Cells) (gs ts : List ℕ) : ℚ := (gs.map fun g => (ts.map fun t => d g t).sum).sum

/-- The draws of the total over some geos and times, as an array. -/
def totals (x : Chains) (gs ts : List ℕ) : List (List Num) :=
  x.map (·.map fun d => some (total d gs ts))

/-- `r` is what C62 calls the mean and the credible interval of the draws `x`. -/
def Describes (level : ℚ) (x : List (List Num)) (r : List Num) : Prop := central x level false = .ok r

/-- The observations of an evaluation set. -/
def member (held : ℕ → ℕ → Bool) : EvalSet → ℕ → ℕ → Bool
  | .train, g, t => !held g t
  | .test, g, t => held g t
  | .all, _, _ => true

/-- The positions an entry of an axis stands for: itself, or the whole axis. -/
def covers (n : ℕ) : Option ℕ → List ℕ
  | some i => [i]
  | none => List.range n

/-- The entries of an axis of length `n`. -/
def IsEntry (n : ℕ) (aggregate : Bool) (k : Option ℕ) : Prop :=
  if aggregate then k = none else ∃ i, i < n ∧ k = some i

/-- Nothing is reported: mean and both ends are NaN. -/
def blank : List Num := [none, none, none]

/-- There is at least one draw. -/
def SomeDraw (x : Chains) : Prop := ∃ ch ∈ x, ch ≠ []

end Verif.FitData.Spec
