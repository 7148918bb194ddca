import Verif.Model.ArrayOps

/-!
# When two arrays are the same
-/

namespace Verif.ArrayOps.Spec

/-- `idx` is an index of an array of this shape: one number for each axis, less than its length. -/
def IsIndex (shape idx : List ℕ) : Prop :=
  idx.length = shape.length ∧ ∀ (i x n : ℕ), idx[i]? = some x → shape[i]? = some n → x < n

/-- The two arrays have the same shape and the same entries. -/
def Same {α : Type} (a b : Tensor α) : Prop :=
  a.shape = b.shape ∧ ∀ idx, IsIndex a.shape idx → a.entry idx = b.entry idx

/-- The two results are the same: both refused, or the same arrays. -/
def SameResult {α : Type} : Except Err (Tensor α) → Except Err (Tensor α) → Prop
  | .ok a, .ok b => Same a b
  | .error _, .error _ => True
  | _, _ => False

/-- The two lists of arrays are the same. -/
def SameParts {α : Type} : Except Err (List (Tensor α)) → Except Err (List (Tensor α)) → Prop
  | .ok a, .ok b => List.Forall₂ Same a b
  | .error _, .error _ => True
  | _, _ => False

end Verif.ArrayOps.Spec
