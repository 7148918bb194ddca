import Verif.Model.Calendar

/-!
# What a spec with dates asks for
-/

namespace Verif.DatedSpec.Spec

open Verif.Calendar

/-- `d` is in the half-open range from `start` to `stop`; a missing bound does not restrict. -/
def InRange (start stop : Option CDate) (d : CDate) : Prop :=
  (∀ a ∈ start, a.ordinal ≤ d.ordinal) ∧ ∀ b ∈ stop, d.ordinal < b.ordinal

instance (start stop : Option CDate) (d : CDate) : Decidable (InRange start stop d) := by
  unfold InRange; infer_instance

/-- Consecutive dates are `k` days apart. -/
def Every (k : ℕ) (dates : List CDate) : Prop := dates.IsChain fun a b => b.ordinal = a.ordinal + k

end Verif.DatedSpec.Spec
