import Verif.Model.GridReuse

/-!
# When a grid fits a request

Vocabulary for `Verif.Props.GridReuse`.
-/

namespace Verif.GridReuse.Spec

open Verif.Optimizer Verif.GridSearch

/-- The grid was made with the settings of the request: the same flags and maximal frequency, the
same first and last date (an omitted date is the first or last date of the data), the channels of the
model, and the same geos in any order (none selected is the same as an empty selection). -/
structure SameSettings (w : World) (a g : Settings) (channels : List String) : Prop where
  posterior : a.usePosterior = g.usePosterior
  kpi : a.useKpi = g.useKpi
  optimalFrequency : a.useOptimalFrequency = g.useOptimalFrequency
  maxFrequency : a.maxFrequency = g.maxFrequency
  start : a.startDate.getD w.firstDate = g.startDate.getD w.firstDate
  stop : a.endDate.getD w.lastDate = g.endDate.getD w.lastDate
  channels : w.channels = channels
  geos : (a.selectedGeos.getD []).Perm (g.selectedGeos.getD [])

/-- The bounds of every channel with a spend in the grid lie between the channel's smallest and
largest spend in the grid. -/
def Covers (G : Grid) (lo hi : ℕ → ℤ) : Prop :=
  ∀ c < G.cols, (∀ r < G.rows, G.spend r c = none) ∨
    (∃ r < G.rows, ∃ s, G.spend r c = some s ∧ s ≤ lo c) ∧
    (∃ r < G.rows, ∃ s, G.spend r c = some s ∧ hi c ≤ s)

end Verif.GridReuse.Spec
