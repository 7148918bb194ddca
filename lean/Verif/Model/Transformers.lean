import Mathlib.Analysis.SpecialFunctions.Pow.Real
import Mathlib.Data.List.Sort

/-!
# Data transformers

`meridian/model/transformers.py`.  A `(n_geos, n_times)` tensor is a function `geo -> time -> ℝ`
used on `geo < G`, `time < T`; channels are independent and one channel is modelled.
-/

namespace Verif.Transformers

/-- A `(n_geos, n_times)` tensor. -/
abbrev Panel := ℕ → ℕ → ℝ

/-- `backend.divide_no_nan`, `meridian/backend/__init__.py:240-244` (and `tf.math.divide_no_nan`). -/
noncomputable def divideNoNan (x y : ℝ) : ℝ := if y ≠ 0 then x / y else 0

/-- All cells of a panel. -/
def cells (G T : ℕ) (x : Panel) : List ℝ :=
  (List.range G).flatMap fun g => (List.range T).map fun t => x g t

/-- `backend.reduce_mean`, `meridian/backend/__init__.py` (numpy mean). -/
noncomputable def mean (G T : ℕ) (x : Panel) : ℝ := (cells G T x).sum / (cells G T x).length

/-- `backend.reduce_std`: population standard deviation (`ddof = 0`). -/
noncomputable def std (G T : ℕ) (x : Panel) : ℝ :=
  Real.sqrt (mean G T fun g t => (x g t - mean G T x) ^ 2)

/-- `np.nanmedian` of the non-NaN values; `none` (NaN) when there are none. -/
noncomputable def median (l : List ℝ) : Option ℝ :=
  let s := l.mergeSort (fun a b => decide (a ≤ b))
  if s.length = 0 then none
  else if s.length % 2 = 1 then some (s.getD (s.length / 2) 0)
  else some ((s.getD (s.length / 2 - 1) 0 + s.getD (s.length / 2) 0) / 2)

/-! ### `MediaTransformer`, `meridian/model/transformers.py:46-107` -/

/-- The stored median: of the non-zero population-scaled values, lines 66-84.  `none` raises. -/
noncomputable def mediaMedian (G T : ℕ) (media : Panel) (pop : ℕ → ℝ) : Option ℝ :=
  median ((cells G T fun g t => divideNoNan (media g t) (pop g)).filter fun v => decide (v ≠ 0))

/-- `_scale_factors_gm`, lines 87-89. -/
def mediaScale (med : ℝ) (pop : ℕ → ℝ) (g : ℕ) : ℝ := pop g * med

/-- `MediaTransformer.forward`, lines 99-102. -/
noncomputable def mediaForward (med : ℝ) (pop : ℕ → ℝ) (x : Panel) : Panel :=
  fun g t => x g t / mediaScale med pop g

/-- `MediaTransformer.inverse`, lines 104-107. -/
def mediaInverse (med : ℝ) (pop : ℕ → ℝ) (x : Panel) : Panel :=
  fun g t => x g t * mediaScale med pop g

/-! ### `CenteringAndScalingTransformer`, `meridian/model/transformers.py:110-181` -/

/-- The stored fields: population scaling factors (`none` when no `population_scaling_id` was
given), mean and standard deviation. -/
structure CS where
  factors : Option (ℕ → ℝ)
  mean : ℝ
  std : ℝ

/-- `__init__`, lines 119-150.  `scaleByPop` is the channel's entry of `population_scaling_id`. -/
noncomputable def csInit (G T : ℕ) (x : Panel) (pop : ℕ → ℝ) (scaleByPop : Option Bool) : CS :=
  match scaleByPop with
  | some b =>
    let f : ℕ → ℝ := fun g => if b then pop g else 1
    let y : Panel := fun g t => x g t / f g
    { factors := some f, mean := Transformers.mean G T y, std := Transformers.std G T y }
  | none => { factors := none, mean := Transformers.mean G T x, std := Transformers.std G T x }

/-- `forward`, lines 152-171. -/
noncomputable def csForward (s : CS) (x : Panel) (applyPopScaling : Bool) : Panel := fun g t =>
  let v := match s.factors with
    | some f => if applyPopScaling then x g t / f g else x g t
    | none => x g t
  divideNoNan (v - s.mean) s.std

/-- `inverse`, lines 173-181. -/
def csInverse (s : CS) (x : Panel) : Panel := fun g t =>
  let v := x g t * s.std + s.mean
  match s.factors with
  | some f => v * f g
  | none => v

/-! ### `KpiTransformer`, `meridian/model/transformers.py:184-241` -/

/-- `population_scaled_kpi`, lines 205-207. -/
noncomputable def popScaled (kpi : Panel) (pop : ℕ → ℝ) : Panel :=
  fun g t => divideNoNan (kpi g t) (pop g)

/-- The stored fields. -/
structure Kpi where
  pop : ℕ → ℝ
  mean : ℝ
  std : ℝ

/-- `__init__`, lines 191-213. -/
noncomputable def kpiInit (G T : ℕ) (kpi : Panel) (pop : ℕ → ℝ) : Kpi where
  pop := pop
  mean := Transformers.mean G T (popScaled kpi pop)
  std := Transformers.std G T (popScaled kpi pop)

/-- `forward`, lines 227-234. -/
noncomputable def kpiForward (s : Kpi) (x : Panel) : Panel :=
  fun g t => divideNoNan (divideNoNan (x g t) (s.pop g) - s.mean) s.std

/-- `inverse`, lines 236-241. -/
def kpiInverse (s : Kpi) (x : Panel) : Panel := fun g t => (x g t * s.std + s.mean) * s.pop g

end Verif.Transformers
