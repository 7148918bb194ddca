import Verif.Model.Review

/-!
# What the model review should say
-/

namespace Verif.Review.Spec

open Verif.Accuracy (Fl)

/-- A limit on the failing channels allows `failing` of `total`: no channel fails, or one of the
limits that are set is respected. -/
def Allowed (count : Option ℤ) (ratio : Option ℚ) (failing total : ℕ) : Prop :=
  failing = 0 ∨ (∃ a, count = some a ∧ (failing : ℤ) ≤ a) ∨
    ∃ r, ratio = some r ∧ (failing : ℚ) ≤ r * total

/-- `a` is a number less than the number `b`. -/
def Less : Fl → Fl → Prop
  | .fin a, .fin b => a < b
  | .fin _, .pinf => True
  | .ninf, .fin _ => True
  | .ninf, .pinf => True
  | _, _ => False

/-- `x` is a number, at most `thr`. -/
def AtMost (x : Fl) (thr : ℚ) : Prop := x = .ninf ∨ ∃ q, x = .fin q ∧ q ≤ thr

/-- All channels of a list of groups. -/
def channels (gs : List Group) : List String := gs.flatMap (·.names)

/-- A channel fails the ROI consistency check: its posterior mean is outside the prior quantiles. -/
def Outside (e : Entry) : Prop := Less e.mean e.lo ∨ Less e.hi e.mean

/-- The quantiles have one number for each channel. -/
def GroupOk (g : Group) : Prop :=
  ∀ lo hi, g.quantiles = some (lo, hi) → lo.length = g.names.length ∧ hi.length = g.names.length

/-- The number of paid channels. -/
def nChannels (w : World) : ℕ := (channels w.groups).length

end Verif.Review.Spec
