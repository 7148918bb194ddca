import Verif.Model.EdaData

/-! # What the exploratory data should be -/

namespace Verif.EdaData.Spec

open Verif.Transformers

/-- Nothing in any modelled period and geo. -/
def Silent (r : Raw) (x : Panel) : Prop := ∀ g < r.G, ∀ t < r.T, x g (r.lead + t) = 0

/-- Mean zero and, unless constant, variance one over `T` periods. -/
def Standardised (T : ℕ) (y : ℕ → ℝ) : Prop :=
  ∑ t ∈ Finset.range T, y t = 0 ∧
    ((∃ t < T, ∃ t' < T, y t ≠ y t') → ∑ t ∈ Finset.range T, y t ^ 2 = T)

/-- The same data with media, reach and frequency counted in other units. -/
def inUnits (r : Raw) (k f : ℝ) : Raw :=
  { r with
    media := r.media.map fun p => (p.1, fun g t => k * p.2 g t)
    organicMedia := r.organicMedia.map fun p => (p.1, fun g t => k * p.2 g t)
    rf := r.rf.map fun p => (p.1, (fun g t => k * p.2.1 g t, fun g t => f * p.2.2 g t))
    organicRf := r.organicRf.map fun p => (p.1, (fun g t => k * p.2.1 g t, fun g t => f * p.2.2 g t)) }

/-- All names in the order of the data sets. -/
def names (r : Raw) : List String :=
  r.media.map Prod.fst ++ (r.rf.map Prod.fst ++ (r.organicMedia.map Prod.fst ++
    (r.organicRf.map Prod.fst ++ (r.controls.map Prod.fst ++ (r.nonMedia.map Prod.fst ++ [])))))

end Verif.EdaData.Spec
