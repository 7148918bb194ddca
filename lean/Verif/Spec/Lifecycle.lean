import Verif.Model.Lifecycle
import Verif.Spec.Batching

/-!
# What is expected of the samples of a model object
-/

namespace Verif.Lifecycle.Spec

open Verif.Lifecycle

variable {S α δ τ P H : Type}

/-- The order in which the groups are replaced leaves none out. -/
def Complete (order : List Group) : Prop := ∀ g : Group, g ∈ order

/-- The kernel returns as many chains and draws as it was asked for. -/
def Honest (w : World S α δ τ) : Prop := ∀ n draws s out, w.kernel n draws s = .ok out →
  out.run.chains = n ∧ out.run.rows.length = draws ∧ (∀ r ∈ out.run.rows, r.length = n) ∧
    match out.trace with
    | .perDraw x => x.length = draws
    | .perChain x => x.length = draws ∧ ∀ y ∈ x, y.length = n

/-- The value of a trace at a draw of a chain. -/
def traceAt : Batching.Trace τ → ℕ → ℕ → Option τ
  | .perDraw x, d, _ => x[d]?
  | .perChain x, d, j => (x[d]?).bind fun r => r[j]?

/-- The call succeeds. -/
def Succeeds (w : World S α δ τ) (c : Call) : Prop :=
  w.criticalIssue = false ∧ ∃ fit, sampler w c = .ok fit

/-- The call of a history that fitted the model. -/
def Fits : Op S P H α δ τ → Option (Fit δ τ)
  | .posterior w _ c | .both w _ c _ =>
    if w.criticalIssue then none else (sampler w c).toOption
  | _ => none

/-- The last successful fit of a history. -/
def lastFit (h : List (Op S P H α δ τ)) : Option (Fit δ τ) := (h.filterMap Fits).getLast?

/-- Every call replaces all groups. -/
def AllComplete (h : List (Op S P H α δ τ)) : Prop := ∀ o ∈ h, match o with
  | .posterior _ order _ | .both _ order _ _ => Complete order
  | _ => True

/-- The seed of the batch `i` of chains. -/
def batchSeed (rng : Rng S) (h : Handler S) (i : ℕ) : KSeed S := kernelSeed rng ((advance rng)^[i] h)

/-- The seed reached from `s` by splitting again and again, taking the first or the second part. -/
def descend (rng : Rng S) (s : S) : List Bool → S
  | [] => s
  | b :: bs => descend rng (if b then (rng.split s).1 else (rng.split s).2) bs

/-- An ideal generator: different ways of splitting never lead to the same seed. -/
def Ideal (rng : Rng S) : Prop := ∀ s p q, descend rng s p = descend rng s q → p = q

end Verif.Lifecycle.Spec
