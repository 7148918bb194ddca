import Mathlib.Data.List.Sort
import Mathlib.Data.List.Dedup
import Mathlib.Algebra.Order.Field.Rat

/-!
# Automatic knot selection

`meridian/model/knots.py`, `AKS.automatic_knot_selection` and `AKS.aspline`.  The ridge solver and the
ordinary least squares fit are parameters (the solver itself is modelled in `Verif.Model.BandSolve`).
-/

namespace Verif.Aks

/-- The errors raised. -/
inductive Err where
  | requiredAndExcluded
  | excludedIllegal
  | minTooLarge
  | maxBelowMin
  | requiredIllegal
  | tooManyRequired
  | restrictWithoutRequired
  | noFeasible
  | solver
  | shape
  | emptyMax
  | noPenalty
  | notConverged
deriving DecidableEq

/-- `np.unique`. -/
def unique (l : List ℤ) : List ℤ := l.dedup.insertionSort (· ≤ ·)

/-- The arguments of `automatic_knot_selection` and the data it reads. -/
structure Args where
  nTimes : ℕ
  nFeatures : ℕ
  penalty : List ℚ
  minKnots : ℤ
  maxKnots : Option ℤ
  required : Option (List ℤ)
  excluded : Option (List ℤ)
  restrict : Bool

/-- `np.unique(xs) if xs is not None and len(xs) > 0 else None`,
`meridian/model/knots.py:318-327`. -/
def normalise (xs : Option (List ℤ)) : Option (List ℤ) :=
  match xs with
  | some l => if l = [] then none else some (unique l)
  | none => none

/-- Times strictly between the first and the last, `meridian/model/knots.py:435-440`. -/
def internal (n : ℕ) : List ℤ :=
  List.map (fun i : ℕ => (i : ℤ)) ((List.range n).filter fun i => decide (0 < i) && decide (i + 1 < n))

/-- `_calculate_initial_knots`, `meridian/model/knots.py:420-457`. -/
def initialKnots (n : ℕ) (excluded : Option (List ℤ)) : Except Err (List ℤ) :=
  let knots := internal n
  let ex := match excluded with
    | some e => e
    | none => knots.getLast?.toList
  if ¬ ∀ e ∈ ex, e ∈ knots then .error .excludedIllegal
  else .ok (knots.filter fun k => decide (k ∉ ex))

/-- `_calculate_and_validate_max_internal_knots`, `meridian/model/knots.py:459-500`. -/
def maxInternal (nKnots nFeatures : ℕ) (minKnots : ℤ) (maxKnots : Option ℤ) : Except Err ℤ :=
  let m := maxKnots.getD ((nKnots : ℤ) - nFeatures)
  if (nKnots : ℤ) < minKnots then .error .minTooLarge
  else if m < minKnots then .error .maxBelowMin
  else .ok m

/-- `np.diff(par, n=2)` (the degree is 1, `meridian/model/knots.py:255`). -/
def diff1 (l : List ℚ) : List ℚ := (l.zip l.tail).map fun p => p.2 - p.1
@[inherit_doc diff1] def diff2 (l : List ℚ) : List ℚ := diff1 (diff1 l)

/-- The constant `epsilon` of the adaptive ridge, `meridian/model/knots.py:510`. -/
def epsilon : ℚ := 1 / 10 ^ 5

/-- Weight of a knot after a pass: 1 for a required knot, lines 583-588. -/
def weightOf (req : List ℤ) (k : ℤ) (d : ℚ) : ℚ :=
  if k ∈ req then 1 else 1 / (d ^ 2 + epsilon ^ 2)

/-- Selection value of a knot after a pass, lines 590-591. -/
def selOf (req : List ℤ) (k : ℤ) (d : ℚ) : ℚ := if k ∈ req then 1 else weightOf req k d * d ^ 2

/-- `np.max(abs(old_sel - sel))`, line 593. -/
def maxChange (old new : List ℚ) : Except Err ℚ :=
  match ((old.zip new).map fun p => |p.1 - p.2|).max? with
  | none => .error .emptyMax
  | some m => .ok m

/-- `knots[sel > 0.99]`, line 596. -/
def selected (knots : List ℤ) (sel : List ℚ) : List ℤ :=
  ((knots.zip sel).filter fun p => decide (99 / 100 < p.2)).map fun p => p.1

/-- The main loop of `aspline`, `meridian/model/knots.py:577-621`: the selected knots for each
penalty.  When the iterations run out before every penalty has converged, the final `np.stack` over
a list with missing entries fails. -/
def asplineLoop (solve : ℚ → List ℚ → List ℚ → Option (List ℚ)) (knots req : List ℤ) :
    ℕ → List ℚ → List ℚ → List ℚ → List ℚ → Except Err (List (List ℤ))
  | _, [], _, _, _ => .ok []
  | 0, _ :: _, _, _, _ => .error .notConverged
  | fuel + 1, pen :: rest, oldSel, w, par =>
    match solve pen w par with
    | none => .error .solver
    | some par =>
      let d := diff2 par
      if d.length ≠ knots.length then .error .shape
      else
        let w := (knots.zip d).map fun p => weightOf req p.1 p.2
        let sel := (knots.zip d).map fun p => selOf req p.1 p.2
        match maxChange oldSel sel with
        | .error e => .error e
        | .ok m =>
          if m < 1 / 10 ^ 6 then
            (asplineLoop solve knots req fuel rest sel w par).map fun r => selected knots sel :: r
          else asplineLoop solve knots req fuel (pen :: rest) sel w par

/-- `aspline`, `meridian/model/knots.py:502-631`, the selected knots only: weights and selection
start at 1 (lines 565-568), the parameters at 1 (line 569). -/
def aspline (solve : ℚ → List ℚ → List ℚ → Option (List ℚ)) (knots req : List ℤ)
    (penalty : List ℚ) : Except Err (List (List ℤ)) :=
  if penalty = [] then .error .noPenalty
  else asplineLoop solve knots req 1000 penalty (knots.map fun _ => 1) (knots.map fun _ => 1)
    (List.replicate (knots.length + 2) 1)

/-- `aic`, lines 607-609, from the residual sum of squares of the fit with the given knots. -/
def aic (rss : List ℤ → ℚ) (sigma0 : ℚ) (k : List ℤ) : ℚ :=
  2 * ((k.length : ℚ) + 2) + 2 * (rss k / sigma0 / 2)

/-- The candidates whose number of knots is in the range, lines 388-393. -/
def feasible (lo hi : ℤ) (cands : List (List ℤ)) : List (List ℤ) :=
  cands.filter fun k => decide (lo ≤ k.length) && decide ((k.length : ℤ) ≤ hi)

/-- The last candidate with the smallest criterion, `meridian/model/knots.py:395-399`. -/
def best (score : List ℤ → ℚ) : List (List ℤ) → Option (List ℤ)
  | [] => none
  | k :: rest => match best score rest with
    | none => some k
    | some b => if score k < score b then some k else some b

/-- Adding the end points, lines 400-405. -/
def addEnds (n : ℕ) (k : List ℤ) : List ℤ :=
  if k = [] then [] else unique (k ++ [0, (n : ℤ) - 1])

/-- The mask of `restrict_to_right_of_required_knots`, `meridian/model/knots.py:353-357`. -/
def restrictKnots (restrict : Bool) (r knots : List ℤ) : List ℤ :=
  if restrict then knots.filter fun k => decide (k ∈ r) || r.all fun q => decide (q < k)
  else knots

/-- The required-knot checks and the call of `aspline`, `meridian/model/knots.py:343-371`: the
candidate knots and the knots selected for each penalty. -/
def candidates (solve : List ℤ → ℚ → List ℚ → List ℚ → Option (List ℚ)) (a : Args)
    (knots : List ℤ) (hi : ℤ) (req : Option (List ℤ)) : Except Err (List ℤ × List (List ℤ)) :=
  match req with
  | some r =>
    if ¬ ∀ k ∈ r, k ∈ knots then .error .requiredIllegal
    else if hi < (r.length : ℤ) then .error .tooManyRequired
    else
      let knots := restrictKnots a.restrict r knots
      (aspline (solve knots) knots r a.penalty).map fun c => (knots, c)
  | none =>
    if a.restrict then .error .restrictWithoutRequired
    else (aspline (solve knots) knots [] a.penalty).map fun c => (knots, c)

/-- `automatic_knot_selection`, `meridian/model/knots.py:260-407`.  (The factor `1/sqrt(n_geos)` on
the penalties is part of `penalty`.) -/
def select (solve : List ℤ → ℚ → List ℚ → List ℚ → Option (List ℚ)) (rss : List ℤ → ℚ)
    (sigma0 : List ℤ → ℚ) (a : Args) : Except Err (List ℤ) :=
  let ex := normalise a.excluded
  let req := normalise a.required
  if (ex.getD []).any fun e => decide (e ∈ req.getD []) then .error .requiredAndExcluded
  else match initialKnots a.nTimes ex with
    | .error e => .error e
    | .ok knots => match maxInternal knots.length a.nFeatures a.minKnots a.maxKnots with
      | .error e => .error e
      | .ok hi => match candidates solve a knots hi req with
        | .error e => .error e
        | .ok cands => match best (aic rss (sigma0 cands.1)) (feasible a.minKnots hi cands.2) with
          | none => .error .noFeasible
          | some k => .ok (addEnds a.nTimes k)

end Verif.Aks
