import Verif.Model.Accuracy

/-!
# What the summary page should say
-/

namespace Verif.Page.Spec

open Verif.Accuracy

/-- The order of numbers with infinities; what is not a number is not comparable. -/
def Le : Fl → Fl → Prop
  | .nan, _ => False
  | _, .nan => False
  | .ninf, _ => True
  | _, .pinf => True
  | .fin a, .fin b => a ≤ b
  | _, _ => False

instance : DecidableRel Le := fun a b => by
  cases a <;> cases b <;> simp only [Le] <;> infer_instance

/-- `a` is at least as good as `b`: where small numbers are good, not larger, otherwise not smaller. -/
def AsGood (small : Bool) (a b : Fl) : Prop := if small then Le a b else Le b a

instance (small : Bool) (a b : Fl) : Decidable (AsGood small a b) := by
  unfold AsGood; infer_instance

/-- What a table library promises of a sort by a column: the same rows, each not better than the rows
before it, and the rows without a number last.  Rows with the same number may come in any order. -/
def Sorts (sort : Bool → List (String × Fl) → List (String × Fl)) : Prop :=
  ∀ small l, (sort small l).Perm l ∧
    (sort small l).Pairwise fun a b => b.2 = .nan ∨ AsGood small a.2 b.2

/-- The rows of the channels, without the row of the total. -/
def channels (l : List (String × Fl)) : List (String × Fl) := l.filter fun p => p.1 ≠ "All Channels"

/-- `p` is a best channel: no channel with a number is better. -/
def Best (small : Bool) (l : List (String × Fl)) (p : String × Fl) : Prop :=
  p ∈ channels l ∧ ∀ q ∈ channels l, q.2 ≠ .nan → AsGood small p.2 q.2

end Verif.Page.Spec
