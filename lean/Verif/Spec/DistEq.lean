import Verif.Model.DistEq

/-!
# When two distributions count as equal

Same class, same names of parameters, and values of the parameters that agree up to a tolerance,
element by element.
-/

namespace Verif.DistEq.Spec

open Verif.DistEq

/-- The number of elements two tensors have in common after broadcasting. -/
def Common (n : ℕ) : Tensor → Tensor → Prop
  | .scalar _, .scalar _ => n = 1
  | .scalar _, .vec l => l.length = n
  | .vec l, .scalar _ => l.length = n
  | .vec l, .vec m => (l.length = n ∨ l.length = 1) ∧ (m.length = n ∨ m.length = 1) ∧
      (l.length = n ∨ m.length = n)

/-- Element `i` of a tensor: a single element counts for all. -/
def entry : Tensor → ℕ → Option Num
  | .scalar x, _ => some x
  | .vec [x], _ => some x
  | .vec l, i => l[i]?

/-- Two numbers agree up to the tolerance; NaN agrees with nothing. -/
def Near (x y : Num) : Prop :=
  ∃ a b : ℚ, x = some a ∧ y = some b ∧ |a - b| ≤ 1 / 10 ^ 8 + 1 / 10 ^ 5 * |b|

/-- Two tensors agree. -/
def Close (t u : Tensor) : Prop :=
  ∃ n, Common n t u ∧ ∀ i < n, ∃ x y, entry t i = some x ∧ entry u i = some y ∧ Near x y

/-- Two values agree. -/
def SameValue : PV → PV → Prop
  | .num t, .num u => Close t u
  | .other s, .other t => s = t
  | _, _ => False

/-- Two dictionaries have the same keys and values that agree. -/
def SameParams (p q : List (String × PV)) : Prop :=
  (∀ k, k ∈ p.map Prod.fst ↔ k ∈ q.map Prod.fst) ∧
    ∀ k v w, p.lookup k = some v → q.lookup k = some w → SameValue v w

mutual

/-- Two distributions count as equal. -/
def Same : Dist → Dist → Prop
  | .mk c i l p, .mk c' i' l' p' => c = c' ∧ SameInner i i' ∧ SameComps l l' ∧ SameParams p p'
termination_by structural a => a

/-- The inner distributions, if any. -/
def SameInner : Inner → Inner → Prop
  | .absent, .absent => True
  | .given d, .given e => Same d e
  | _, _ => False
termination_by structural a => a

/-- The component distributions, if any. -/
def SameComps : Comps → Comps → Prop
  | .absent, .absent => True
  | .given l, .given m => SameList l m
  | _, _ => False
termination_by structural a => a

/-- Lists of the same length, equal in turn. -/
def SameList : Dists → Dists → Prop
  | .nil, .nil => True
  | .cons d l, .cons e m => Same d e ∧ SameList l m
  | _, _ => False
termination_by structural a => a

end

/-- No NaN in a tensor. -/
def Finite : PV → Prop
  | .num (.scalar x) => x ≠ none
  | .num (.vec l) => none ∉ l
  | .other _ => True

mutual

/-- No NaN among the parameters. -/
def AllFinite : Dist → Prop
  | .mk _ i l p => InnerFinite i ∧ CompsFinite l ∧ ∀ x ∈ p, Finite x.2

/-- No NaN in the inner distribution. -/
def InnerFinite : Inner → Prop
  | .absent => True
  | .given d => AllFinite d

/-- No NaN in the components. -/
def CompsFinite : Comps → Prop
  | .absent => True
  | .given l => ListFinite l

/-- No NaN in a list. -/
def ListFinite : Dists → Prop
  | .nil => True
  | .cons d l => AllFinite d ∧ ListFinite l

end

end Verif.DistEq.Spec
