import Verif.Model.Consumer

/-!
# What running a list of specs should do
-/

namespace Verif.Consumer.Spec

variable {τ α : Type} [DecidableEq τ]

/-- The specs of one class, in the order given. -/
def ofClass (t : τ) (specs : List (Consumer.Spec τ α)) : List (Consumer.Spec τ α) :=
  specs.filter fun s => decide (s.cls = t)

/-- The field that holds the results for a class. -/
def field {ρ : Type} (o : Mmm ρ) : Cls → Option ρ
  | .modelFit => o.modelFit
  | .marketing => o.marketing
  | .budget => o.budget
  | .reachFrequency => o.reachFrequency
  | _ => none

/-- The four classes that can be run. -/
def known : List Cls := [.modelFit, .marketing, .budget, .reachFrequency]

end Verif.Consumer.Spec
