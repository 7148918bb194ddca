import Mathlib.Data.Rat.Defs
import Mathlib.Algebra.Order.Field.Rat
import Mathlib.Algebra.BigOperators.Group.List.Basic

/-! # Interpolation and periods -/

namespace Verif.Weekly.Spec

/-- Two neighbours in a list. -/
def Neighbours {α : Type} (l : List α) (p q : α) : Prop := ∃ u v, l = u ++ p :: q :: v

/-- The point `(x, y)` is on the line through `p` and `q`, and between them. -/
def OnSegment (p q : ℚ × ℚ) (x y : ℚ) : Prop :=
  p.1 ≤ x ∧ x ≤ q.1 ∧ (y - p.2) * (q.1 - p.1) = (q.2 - p.2) * (x - p.1)

/-- Nodes with increasing places. -/
def Increasing (l : List (ℚ × ℚ)) : Prop := l.Pairwise fun p q => p.1 < q.1

/-- No negative weights: the function lies above its chords between the places of the nodes. -/
def AboveChords (f : ℚ → ℚ) : Prop :=
  ∀ x y z, x ≤ y → y ≤ z → (f z - f x) * (y - x) ≤ (f y - f x) * (z - x)

/-- The total over the entries of a labelled list from `a` to `b`. -/
def periodTotal (l : List (ℤ × ℚ)) (a b : ℤ) : ℚ :=
  ((l.filter fun p => decide (a ≤ p.1 ∧ p.1 ≤ b)).map Prod.snd).sum

end Verif.Weekly.Spec
