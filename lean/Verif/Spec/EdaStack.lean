import Verif.Model.EdaStack

/-!
# What the stacked variables should be
-/

namespace Verif.EdaStack.Spec

/-- The channels of the given kinds, one kind after the other, each with its own series. -/
def channels {α : Type} (p : Data α) (kinds : List Dim) : List (String × α) :=
  kinds.flatMap fun d => (p d).getD []

/-- There are channels of one of the kinds. -/
def SomePresent {α : Type} (p : Data α) (kinds : List Dim) : Prop := ∃ d ∈ kinds, (p d).isSome

/-- The dimensions that stay. -/
def Kept (d : Dim) : Prop := d = .time ∨ d = .geo

/-- An array that fits the coordinates. -/
def Fits {α : Type} (coords : Dim → List String) (sample : List Dim) (a : Arr α) : Prop :=
  a.sample = sample ∧ ∃ d, a.chan = some d ∧ ¬ Kept d ∧ a.values.length = (coords d).length

/-- The rows that belong to an array: the names of its channels with their series. -/
def rows {α : Type} (coords : Dim → List String) (a : Arr α) : List (String × α) :=
  ((a.chan.map coords).getD []).zip a.values

end Verif.EdaStack.Spec
