import Verif.Model.Num
import Mathlib.Data.List.Basic

/-!
# Stabilisation of the ROI of reach and frequency channels

`_jax_stabilize_rf_roi_grid` and `_tf_stabilize_rf_roi_grid` of `meridian/backend/__init__.py`, called
by `create_grids` of `meridian/analysis/optimizer.py:2846-2850`.

A grid is a function of row and column, `none` is NaN.  The functions below give the cells of the
returned array for a grid with `R > 0` rows, `C` columns and `1 ≤ n ≤ C` RF channels (the caller
only calls with `n > 0`, and the RF channels are the last columns of the grid).
-/

namespace Verif.Stabilize

/-- The first index of `slice(-n, None)` on an axis of length `C`: `-0` is `0`, the whole axis.
`meridian/backend/__init__.py:145` and 173. -/
def sliceStart (C n : ℕ) : ℕ := if n = 0 then 0 else C - n

/-- The values of a column that are not NaN. -/
def valid (R : ℕ) (col : ℕ → Num) : List ℚ := (List.range R).filterMap col

/-- `np.sum(~np.isnan(col)) - 1` as an index into `R` rows, `-1` being the last row.
`meridian/backend/__init__.py:149`. -/
def lastValid (R : ℕ) (col : ℕ → Num) : ℕ :=
  match (valid R col).length with
  | 0 => R - 1
  | k + 1 => k

/-- `np.nanmax(col)`: NaN if there is no value. `meridian/backend/__init__.py:174-175`. -/
def nanmax (R : ℕ) (col : ℕ → Num) : Num :=
  match valid R col with
  | [] => none
  | x :: l => some (l.foldl max x)

/-- IEEE multiplication. -/
def mul : Num → Num → Num
  | some a, some b => some (a * b)
  | _, _ => none

/-- The ROI of a column on JAX, `meridian/backend/__init__.py:149-160`. -/
def jaxRoi (R : ℕ) (spend outcome : ℕ → Num) : Num :=
  Num.divWhere (outcome (lastValid R spend)) (spend (lastValid R spend))

/-- The ROI of a column on TensorFlow, `meridian/backend/__init__.py:174-182`. -/
def tfRoi (R : ℕ) (spend outcome : ℕ → Num) : Num :=
  Num.divWhere (nanmax R outcome) (nanmax R spend)

/-- Overwriting the columns of the slice, `meridian/backend/__init__.py:162` and 184. -/
def overwrite (C n : ℕ) (roi : ℕ → Num) (spend outcome : ℕ → ℕ → Num) (i j : ℕ) : Num :=
  if sliceStart C n ≤ j ∧ j < C then mul (roi j) (spend i j) else outcome i j

/-- `_jax_stabilize_rf_roi_grid`, `meridian/backend/__init__.py:138-163`. -/
def jaxStabilize (R C n : ℕ) (spend outcome : ℕ → ℕ → Num) : ℕ → ℕ → Num :=
  overwrite C n (fun j => jaxRoi R (spend · j) (outcome · j)) spend outcome

/-- `_tf_stabilize_rf_roi_grid`, `meridian/backend/__init__.py:166-185`. -/
def tfStabilize (R C n : ℕ) (spend outcome : ℕ → ℕ → Num) : ℕ → ℕ → Num :=
  overwrite C n (fun j => tfRoi R (spend · j) (outcome · j)) spend outcome

end Verif.Stabilize
