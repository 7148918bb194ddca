import Mathlib.Data.Rat.Defs
import Mathlib.Algebra.Order.Field.Rat
import Mathlib.Data.List.Sort
import Mathlib.Data.List.Dedup

/-!
# Knots

`meridian/model/knots.py:39-242`: knot locations and interpolation weights.
Weights are exact rationals.
-/

namespace Verif.Knots

/-- The errors raised. -/
inductive Err where
  | notSorted
  | tooFew
  | notUnique
  | negative
  | tooLarge
  | intTooSmall
  | intTooLarge
  | intNational
deriving DecidableEq

/-- `np.sort`. -/
def npSort (l : List ℤ) : List ℤ := l.insertionSort (· ≤ ·)

/-- `np.unique`: sorted distinct values. -/
def npUnique (l : List ℤ) : List ℤ := (npSort l).dedup

/-- `np.searchsorted(knot_locations, t, side='right')` on a sorted array: the number of entries that
are at most `t`. -/
def searchsortedRight (locs : List ℤ) (t : ℤ) : ℕ := locs.countP fun k => decide (k ≤ t)

/-- `_find_left_knot_indices` for one time, `meridian/model/knots.py:39-67`.  (A negative index,
possible only before the overrides of lines 63-65, is cut off at 0.) -/
def leftKnotIndex (locs : List ℤ) (t : ℤ) : ℕ :=
  let i := searchsortedRight locs t - 1
  let i := if t < locs.headD 0 then 0 else i
  if locs.getLastD 0 ≤ t then locs.length - 1 else i

/-- One entry `w[k, t]` of the loop of `l1_distance_weights`, `meridian/model/knots.py:117-137`. -/
def weightEntry (locs : List ℤ) (k t : ℕ) : ℚ :=
  let left := leftKnotIndex locs t
  if (t : ℤ) ∈ locs then
    if k = locs.idxOf (t : ℤ) then 1 else 0
  else if (t : ℤ) < locs.headD 0 ∨ locs.getLastD 0 < (t : ℤ) then
    if k = left then 1 else 0
  else
    let leftDist := |locs.getD left 0 - t|
    let rightDist := |locs.getD (left + 1) 0 - t|
    let total := leftDist + rightDist
    if k = left + 1 then (leftDist : ℚ) / total
    else if k = left then (rightDist : ℚ) / total
    else 0

/-- `l1_distance_weights`, `meridian/model/knots.py:70-139`; the result is a
`(len(knot_locations), n_times)` array. -/
def l1DistanceWeights (nTimes : ℕ) (locs : List ℤ) : Except Err (ℕ → ℕ → ℚ) :=
  if locs ≠ npSort locs then .error .notSorted
  else if locs.length ≤ 1 then .error .tooFew
  else if locs.length ≠ (npUnique locs).length then .error .notUnique
  else if ∃ k ∈ locs, k < 0 then .error .negative
  else if ∃ k ∈ locs, (nTimes : ℤ) ≤ k then .error .tooLarge
  else .ok (weightEntry locs)

/-- `np.linspace(0, n_times - 1, n_knots, dtype=int)`, `meridian/model/knots.py:142-144`: the exact
values rounded down. -/
def equallySpaced (nTimes nKnots : ℕ) : List ℤ :=
  (List.range nKnots).map fun i => (((i * (nTimes - 1)) / (nKnots - 1) : ℕ) : ℤ)

/-- The `knots` argument: an integer, a collection, or `None`. -/
inductive KnotArg where
  | int (k : ℤ)
  | list (ks : List ℤ)
  | none

/-- `KnotInfo`, `meridian/model/knots.py:147-160`.  `weightRows` is the first dimension of the
weight array (the second one is `n_times`). -/
structure KnotInfo where
  nKnots : ℕ
  locations : List ℤ
  weightRows : ℕ
  weights : ℕ → ℕ → ℚ

/-- Lines 237-242 of `get_knot_info`. -/
def finish (nTimes nKnots : ℕ) (locs : List ℤ) : Except Err KnotInfo :=
  if nKnots = 1 then .ok ⟨nKnots, locs, 1, fun _ _ => 1⟩
  else (l1DistanceWeights nTimes locs).map fun w => ⟨nKnots, locs, locs.length, w⟩

/-- `get_knot_info` without automatic knot selection, `meridian/model/knots.py:163-242`. -/
def getKnotInfo (nTimes : ℕ) (knots : KnotArg) (isNational : Bool) : Except Err KnotInfo :=
  let dflt := if isNational then 1 else nTimes
  match knots with
  | .int k =>
    if k < 1 then .error .intTooSmall
    else if (nTimes : ℤ) < k then .error .intTooLarge
    else if isNational ∧ k = nTimes then .error .intNational
    else finish nTimes k.toNat (equallySpaced nTimes k.toNat)
  | .list ks =>
    if ks.length > 0 then
      if ∃ k ∈ ks, k < 0 then .error .negative
      else if ∃ k ∈ ks, (nTimes : ℤ) ≤ k then .error .tooLarge
      else finish nTimes ks.length (npUnique ks)
    else finish nTimes dflt (equallySpaced nTimes dflt)
  | .none => finish nTimes dflt (equallySpaced nTimes dflt)

end Verif.Knots
