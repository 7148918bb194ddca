import Verif.Model.Rhat

/-!
# What the R-hat summary and the convergence check should say
-/

namespace Verif.Rhat.Spec

open Verif.Accuracy (Fl)

/-- The order of the numbers that are not NaN. -/
def Below : Fl → Fl → Prop
  | .fin a, .fin b => a < b
  | .fin _, .pinf => True
  | .ninf, .fin _ => True
  | .ninf, .pinf => True
  | _, _ => False

/-- The values that are numbers. -/
def known (l : List Fl) : List Fl := l.filter fun x => !x.isNan

/-- `m` is the largest of the values that are numbers. -/
def IsLargest (l : List Fl) (m : Fl) : Prop := m ∈ known l ∧ ∀ x ∈ l, ¬ Below m x

/-- The channel number `i` of a kind has no saturation: its effect is linear. -/
def Linear (c : Ctx) (k : Kind) (i : ℕ) : Prop :=
  match c.sat k with
  | .all s => i < c.n k ∧ s = "none"
  | .each l => l[i]? = some "none"

/-- A context as the model builds it: where there is one saturation for each channel, there are as
many as channels. -/
def WellFormed (c : Ctx) : Prop := ∀ k l, c.sat k = .each l → l.length = c.n k

/-- All the R-hat values of all the parameters. -/
def values (rhat : List (String × Tensor)) : List Fl := rhat.flatMap fun p => p.2.flat

/-- The prior of a parameter has its name, but that of the intercepts of the geos leaves out the baseline
geo. -/
def priorOf : String → String
  | "tau_g" => "tau_g_excl_baseline"
  | p => p

end Verif.Rhat.Spec
