import Mathlib.Data.Rat.Floor
import Mathlib.Data.List.Sort
import Mathlib.Algebra.BigOperators.Group.List.Basic
import Verif.Model.Num

/-!
# Central tendency and credible intervals

`get_central_tendency_and_ci` (`meridian/analysis/analyzer.py:48-76`), for one metric cell: the
reduced axes `(0, 1)` are the chains and the draws of each chain.  Numbers are exact; an `inf` among
the draws is not modelled.  `np.mean`, `np.quantile` (method `linear`, the default) and `np.median`
are modelled from the numpy documentation.  A metric without any draw is not modelled faithfully
(numpy warns or raises); the model returns NaN and the theorems assume at least one draw.
-/

namespace Verif.Interval

/-- Errors: `np.quantile` raises for a level outside `[0, 1]`. -/
inductive Err where
  | levelOutOfRange
deriving DecidableEq

/-- The draws in increasing order (the partition step of `np.quantile`). -/
def sorted (x : List ℚ) : List ℚ := x.insertionSort (· ≤ ·)

/-- `np.quantile(x, q)` for finite numbers: linear interpolation at the virtual index `(n-1)q`
(numpy `_quantile`; called at `meridian/analysis/analyzer.py:69-70`). -/
def quantileFin (x : List ℚ) (q : ℚ) : ℚ :=
  let h : ℚ := ((x.length : ℚ) - 1) * q
  let j : ℕ := ⌊h⌋.toNat
  let a := (sorted x).getD j 0
  let b := (sorted x).getD (min (j + 1) (x.length - 1)) 0
  a + (h - j) * (b - a)

/-- `np.median(x)` for finite numbers: the middle value or the mean of the two middle values
(called at `meridian/analysis/analyzer.py:73`). -/
def medianFin (x : List ℚ) : ℚ :=
  if x.length % 2 = 1 then (sorted x).getD (x.length / 2) 0
  else ((sorted x).getD (x.length / 2 - 1) 0 + (sorted x).getD (x.length / 2) 0) / 2

/-- `np.mean(x)` for finite numbers (`meridian/analysis/analyzer.py:68`). -/
def meanFin (x : List ℚ) : ℚ := x.sum / x.length

/-- The finite values of an array, or `none` if it holds a NaN.  `np.mean`, `np.median` and
`np.quantile` return NaN as soon as one draw is NaN. -/
def finite : List Num → Option (List ℚ)
  | [] => some []
  | none :: _ => none
  | some a :: l => (finite l).map (a :: ·)

/-- A numpy reduction of an array: NaN if the array holds a NaN (or nothing). -/
def reduce (f : List ℚ → ℚ) (x : List Num) : Num :=
  match finite x with
  | none => none
  | some [] => none
  | some (a :: l) => some (f (a :: l))

/-- `np.quantile` with its check of the level. -/
def quantile (x : List Num) (q : ℚ) : Except Err Num :=
  if q < 0 ∨ 1 < q then .error .levelOutOfRange else .ok (reduce (quantileFin · q) x)

/-- `get_central_tendency_and_ci`, `meridian/analysis/analyzer.py:48-76`.  `data` has one list of
draws for each chain. -/
def central (data : List (List Num)) (level : ℚ) (includeMedian : Bool) :
    Except Err (List Num) :=
  match quantile data.flatten ((1 - level) / 2) with
  | .error e => .error e
  | .ok lo =>
    match quantile data.flatten ((1 + level) / 2) with
    | .error e => .error e
    | .ok hi =>
      if includeMedian then
        .ok [reduce meanFin data.flatten, reduce medianFin data.flatten, lo, hi]
      else .ok [reduce meanFin data.flatten, lo, hi]

end Verif.Interval
