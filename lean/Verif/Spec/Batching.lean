import Verif.Model.Batching

/-!
# What computing draw by draw means
-/

namespace Verif.Batching.Spec

open Verif.Batching

variable {α β σ : Type*}

/-- Entry of chain `c` and draw `d`. -/
def entry (x : List (List α)) (c d : ℕ) : Option α := x[c]?.bind fun l => l[d]?

/-- `x` has `nChains` chains with `nDraws` draws each. -/
def Shape (nChains nDraws : ℕ) (x : List (List α)) : Prop :=
  x.length = nChains ∧ ∀ l ∈ x, l.length = nDraws

/-- The parameters `names` of chain `c` and draw `d` of a group of arrays. -/
def drawOf (s : Store α) (names : List String) (c d : ℕ) : String → Option α := fun k =>
  if k ∈ names then (s.lookup k).bind fun x => entry x c d else none

/-- `env` gives every node of the model its value without any randomness: the given value if there
is one, otherwise the node is a function of the nodes before it. -/
def Determined (nodes : List (Node σ α)) (given : String → Option α) (env : List (String × α)) :
    Prop :=
  env.length = nodes.length ∧
    ∀ (i : ℕ) (n : Node σ α), nodes[i]? = some n → ∃ v, env[i]? = some (n.name, v) ∧
      (given n.name = some v ∨
        given n.name = none ∧ ∃ f, n.kind = .deterministic f ∧ v = f (env.take i))

/-- What is known of chain `c` and draw `d`: the latents, and the KPI of the node `y`. -/
def known (latents : Store α) (kpi : α) (c d : ℕ) : String → Option α := fun k =>
  match (latents.lookup k).bind fun x => entry x c d with
  | some v => some v
  | none => if k = "y" then some kpi else none

end Verif.Batching.Spec
