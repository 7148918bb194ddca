import Mathlib.Data.Real.Basic
import Mathlib.Algebra.BigOperators.Group.List.Basic

/-!
# Sums over the geo and time axes of a tensor

Independent of the model.
-/

namespace Verif.TensorFilter.Spec

/-- The number of channels that a channel axis may have: the media channels, the reach and frequency channels,
both, or all treatments, and one more for a total. -/
def ChannelCount (media rf nonMedia organicMedia organicRf c : ℕ) : Prop :=
  ∃ n, (n = media ∨ n = rf ∨ n = media + rf ∨ n = media + rf + nonMedia + organicMedia + organicRf) ∧
    (c = n ∨ c = n + 1)

/-- The sum over geos and times of the entries at a place before and a place after the two axes. -/
def cells (x : List ℕ → ℝ) (gs ts before after : List ℕ) : ℝ :=
  (gs.map fun g => (ts.map fun t => x (before ++ [g, t] ++ after)).sum).sum

end Verif.TensorFilter.Spec
