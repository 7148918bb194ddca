import Verif.Spec.Eda

/-! # Orders and categories -/

namespace Verif.EdaMore.Spec

variable {ι : Type} [Fintype ι]

/-- Two columns put the cells in the same order, with the same ties. -/
def SameOrder (x y : ι → ℝ) : Prop := ∀ i j, x i < x j ↔ y i < y j

/-- Two columns put the cells in opposite orders, with the same ties. -/
def OppositeOrder (x y : ι → ℝ) : Prop := ∀ i j, x i < x j ↔ y j < y i

/-- The average of a geo over time. -/
noncomputable def geoAvg {G T : ℕ} (v : Fin G → Fin T → ℝ) (g : Fin G) : ℝ := (∑ t, v g t) / T

/-- The average of a period over geos. -/
noncomputable def timeAvg {G T : ℕ} (v : Fin G → Fin T → ℝ) (t : Fin T) : ℝ := (∑ g, v g t) / G

/-- The average of all cells. -/
noncomputable def allAvg {G T : ℕ} (v : Fin G → Fin T → ℝ) : ℝ := (∑ g, ∑ t, v g t) / (G * T)

/-- The variation of all cells. -/
noncomputable def total {G T : ℕ} (v : Fin G → Fin T → ℝ) : ℝ := ∑ g, ∑ t, (v g t - allAvg v) ^ 2

/-- The variation between geos. -/
noncomputable def betweenGeos {G T : ℕ} (v : Fin G → Fin T → ℝ) : ℝ :=
  T * ∑ g, (geoAvg v g - allAvg v) ^ 2

/-- The variation between periods. -/
noncomputable def betweenTimes {G T : ℕ} (v : Fin G → Fin T → ℝ) : ℝ :=
  G * ∑ t, (timeAvg v t - allAvg v) ^ 2

/-- The variation within the geos. -/
noncomputable def withinGeos {G T : ℕ} (v : Fin G → Fin T → ℝ) : ℝ :=
  ∑ g, ∑ t, (v g t - geoAvg v g) ^ 2

/-- The variation within the periods. -/
noncomputable def withinTimes {G T : ℕ} (v : Fin G → Fin T → ℝ) : ℝ :=
  ∑ t, ∑ g, (v g t - timeAvg v t) ^ 2

/-- The share explained by geo, with every sum of squares divided by its degrees of freedom. -/
noncomputable def adjustedGeo {G T : ℕ} (v : Fin G → Fin T → ℝ) : ℝ :=
  1 - (withinGeos v / (G * (T - 1))) / (total v / (G * T - 1))

/-- The share explained by time, in the same way. -/
noncomputable def adjustedTime {G T : ℕ} (v : Fin G → Fin T → ℝ) : ℝ :=
  1 - (withinTimes v / (T * (G - 1))) / (total v / (G * T - 1))

/-- A geo effect plus a time effect. -/
def Additive {G T : ℕ} (v : Fin G → Fin T → ℝ) : Prop := ∃ (a : Fin G → ℝ) (b : Fin T → ℝ),
  ∀ g t, v g t = a g + b t

end Verif.EdaMore.Spec
