import Verif.Model.RunLog

/-!
# Specification: what a run records
-/

namespace Verif.RunLog.Spec

/-- The run has this value for this parameter, and no other. -/
def Recorded (r : Run) (k v : String) : Prop := (k, v) ∈ r ∧ ∀ v', (k, v') ∈ r → v' = v

/-- The run has no value for this parameter. -/
def Unrecorded (r : Run) (k : String) : Prop := ∀ v, (k, v) ∉ r

/-- A world before a call, with nothing logged yet. -/
def fresh {σ α ε : Type} (obj : σ) : World σ α ε := ⟨[], [], obj, none, 0, []⟩

/-- The caller sees what the method itself does: its result, its effect on the object, one call. -/
def Transparent {σ α ε : Type} (f : σ → Except ε α × σ) (w w' : World σ α ε) : Prop :=
  w'.result = some (f w.obj).1 ∧ w'.obj = (f w.obj).2 ∧ w'.calls = w.calls + 1

/-- What a service of any kind may do with a parameter: keep the run, or add the parameter to it. -/
def Appends (S : Service) : Prop := ∀ r k v r', S r k v = some r' → r' = r ∨ r' = r ++ [(k, v)]

end Verif.RunLog.Spec
