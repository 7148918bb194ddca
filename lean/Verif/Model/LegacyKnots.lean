import Verif.Model.Aks
import Verif.Model.Knots
import Verif.Model.SaveLoad

/-!
# Automatic knots of models saved by earlier versions

`meridian/schema/serde/legacy_aks.py` and `meridian/schema/serde/legacy_aks_v1_7_1.py` are copies of the automatic knot
selection of earlier versions.  They differ from `meridian/model/knots.py` (`Verif.Model.Aks`) in the scale of the
criterion (the mean squared residual is squared) and, up to 1.7.0, in that the end points are not added.  The solver,
the residual sums of squares and the mean squared residual of the fit with all knots are parameters, as in
`Verif.Model.Aks`.
-/

namespace Verif.LegacyKnots

open Verif.Aks Verif.SaveLoad

/-- The selection without the end points, `meridian/schema/serde/legacy_aks.py:54-190`. -/
def pick (solve : List ℤ → ℚ → List ℚ → List ℚ → Option (List ℚ)) (rss : List ℤ → ℚ)
    (sigma0 : List ℤ → ℚ) (a : Args) : Except Aks.Err (List ℤ) :=
  let ex := normalise a.excluded
  let req := normalise a.required
  if (ex.getD []).any fun e => decide (e ∈ req.getD []) then .error .requiredAndExcluded
  else match initialKnots a.nTimes ex with
    | .error e => .error e
    | .ok knots => match maxInternal knots.length a.nFeatures a.minKnots a.maxKnots with
      | .error e => .error e
      | .ok hi => match candidates solve a knots hi req with
        | .error e => .error e
        | .ok cands => match best (aic rss (sigma0 cands.1)) (feasible a.minKnots hi cands.2) with
          | none => .error .noFeasible
          | some k => .ok k

/-- `sigma0sq = ... .mse_resid ** 2`, `meridian/schema/serde/legacy_aks.py:342` and
`meridian/schema/serde/legacy_aks_v1_7_1.py:456`. -/
def squared (mse : List ℤ → ℚ) (k : List ℤ) : ℚ := mse k ^ 2

/-- The arguments of `automatic_knot_selection` for a model: the defaults, `meridian/model/knots.py:260-268` and
`meridian/model/knots.py:196-203`. -/
def modelArgs (nTimes nFeatures : ℕ) (penalty : List ℚ) : Args where
  nTimes := nTimes
  nFeatures := nFeatures
  penalty := penalty
  minKnots := 1
  maxKnots := none
  required := none
  excluded := none
  restrict := false

/-- What a model has for the selection. -/
structure Fit where
  nTimes : ℕ
  nFeatures : ℕ
  penalty : List ℚ
  solve : List ℤ → ℚ → List ℚ → List ℚ → Option (List ℚ)
  rss : List ℤ → ℚ
  mse : List ℤ → ℚ
  isNational : Bool

/-- The arguments for a model. -/
def Fit.args (f : Fit) : Args := modelArgs f.nTimes f.nFeatures f.penalty

/-- What can go wrong. -/
inductive Fail where
  | selection (e : Aks.Err)
  | weights (e : Knots.Err)
  deriving DecidableEq

/-- `legacy_aks.get_legacy_knots`, `meridian/schema/serde/legacy_aks.py:660-664`. -/
def legacy170 (f : Fit) : Except Aks.Err (List ℤ) := pick f.solve f.rss (squared f.mse) f.args

/-- `legacy_aks_v1_7_1.get_legacy_knots`, `meridian/schema/serde/legacy_aks_v1_7_1.py:296-304` and
`meridian/schema/serde/legacy_aks_v1_7_1.py:779-792`. -/
def legacy171 (f : Fit) : Except Aks.Err (List ℤ) :=
  match pick f.solve f.rss (squared f.mse) f.args with
  | .error e => .error e
  | .ok k =>
    let s := addEnds f.nTimes k
    if s ≠ [] then .ok s
    else .ok (Knots.equallySpaced f.nTimes (if f.isNational then 1 else f.nTimes))

/-- `_inject_legacy_knot_info_for_serde`, `meridian/model/context.py:563-575`. -/
def inject (nTimes : ℕ) (locs : List ℤ) : Except Knots.Err Knots.KnotInfo :=
  if locs.length = 1 then .ok ⟨locs.length, locs, 1, fun _ _ => 1⟩
  else (Knots.l1DistanceWeights nTimes locs).map fun w => ⟨locs.length, locs, locs.length, w⟩

/-- The knots of a model of this version with automatic knots, `meridian/model/knots.py:196-242`. -/
def now (f : Fit) : Except Fail Knots.KnotInfo :=
  match select f.solve f.rss f.mse f.args with
  | .error e => .error (.selection e)
  | .ok ks =>
    match Knots.getKnotInfo f.nTimes (.list ks) f.isNational with
    | .error e => .error (.weights e)
    | .ok i => .ok i

/-- The knots that a copy of an earlier selection gives. -/
def injected (nTimes : ℕ) : Except Aks.Err (List ℤ) → Except Fail Knots.KnotInfo
  | .error e => .error (.selection e)
  | .ok ks =>
    match inject nTimes ks with
    | .error e => .error (.weights e)
    | .ok i => .ok i

/-- The knots of a loaded model with automatic knots, `meridian/schema/serde/meridian_serde.py:390-402`. -/
def loaded (v : Version) (f : Fit) : Except Fail Knots.KnotInfo :=
  if v.le cutoff170 then injected f.nTimes (legacy170 f)
  else if v.le cutoff171 then injected f.nTimes (legacy171 f)
  else now f

end Verif.LegacyKnots
