import Verif.Model.EdaCharts

/-!
# Specification: what tables and charts must show
-/

namespace Verif.EdaCharts.Spec

/-- The shown items are the first `n` in an order that may compare items as equal: they are sorted, there
are `n` of them or all, and together with those left out they are the given items, none of which comes
before a shown one. -/
def First {α : Type} (le : α → α → Prop) (n : ℕ) (items shown : List α) : Prop :=
  shown.length = min n items.length ∧ shown.Pairwise le ∧
    ∃ rest, (shown ++ rest).Perm items ∧ ∀ a ∈ shown, ∀ b ∈ rest, le a b

/-- Both variables of a pair are among these. -/
def Within (p : Corr) (vars : List String) : Prop := p.first ∈ vars ∧ p.second ∈ vars

/-- The variable is one of the pair. -/
def Of (v : String) (p : Corr) : Prop := v = p.first ∨ v = p.second

end Verif.EdaCharts.Spec
