import Verif.Model.Calendar

/-! # What date selection and period bounds mean, in terms of day numbers. -/

namespace Verif.TimeCoordinates.Spec

open Verif.Calendar

/-- Dates in order, repetitions allowed. -/
def NonDecreasing (dates : List CDate) : Prop := dates.Pairwise fun a b => a.ordinal ≤ b.ordinal

/-- Dates in order without repetition. -/
def Increasing (dates : List CDate) : Prop := dates.Pairwise fun a b => a.ordinal < b.ordinal

/-- `d` lies between the two (possibly missing) limits, both inclusive. -/
def Within (s e : Option CDate) (d : CDate) : Prop :=
  (∀ a ∈ s, a.ordinal ≤ d.ordinal) ∧ (∀ b ∈ e, d.ordinal ≤ b.ordinal)

instance (s e : Option CDate) (d : CDate) : Decidable (Within s e d) := by
  unfold Within; infer_instance

/-- `b` directly follows `a` in the coordinates. -/
def Next (dates : List CDate) (a b : CDate) : Prop :=
  ∃ i : ℕ, dates[i]? = some a ∧ dates[i + 1]? = some b

/-- Every reported period ends where the next time coordinate *of the dataset* begins. -/
def Tiles (dates : List CDate) (bounds : List (CDate × ℤ)) : Prop :=
  ∀ a b e, Next dates a b → (a, e) ∈ bounds → e = b.ordinal

/-- Number of days from `a` to `b`. -/
def days (a b : CDate) : ℤ := (b.ordinal : ℤ) - a.ordinal

end Verif.TimeCoordinates.Spec
