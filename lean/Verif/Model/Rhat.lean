import Verif.Model.Accuracy

/-!
# R-hat: masking, summary and the convergence check

`Analyzer._mask_hill_parameters_for_linear_channels`, `Analyzer.rhat_summary`
(`meridian/analysis/analyzer.py:3434-3571`) and `ConvergenceCheck.run`
(`meridian/analysis/review/checks.py:129-171`).

The R-hat values themselves come from `backend.mcmc.potential_scale_reduction` and are inputs; they
may be NaN (a parameter that never moves has R-hat 0/0) or infinite.  Arithmetic is exact.
-/

namespace Verif.Rhat

open Verif.Accuracy (Fl nanmean)

/-- IEEE `<`: false if one side is NaN. -/
def lt : Fl → Fl → Bool
  | .nan, _ => false
  | _, .nan => false
  | .fin a, .fin b => decide (a < b)
  | .ninf, .ninf => false
  | .ninf, _ => true
  | .pinf, _ => false
  | _, .pinf => true
  | _, _ => false

/-- IEEE `>`. -/
def gt (a b : Fl) : Bool := lt b a

/-- IEEE `<=`. -/
def le (a b : Fl) : Bool := lt a b || (a == b && !a.isNan)

/-- The R-hat values of a parameter: one for each of its entries.  Parameters with more than two
dimensions are refused by the summary. -/
inductive Tensor where
  | scalar (x : Fl)
  | vec (l : List Fl)
  | mat (rows : List (List Fl))
  | deep (l : List Fl)

/-- All the values. -/
def Tensor.flat : Tensor → List Fl
  | .scalar x => [x]
  | .vec l => l
  | .mat r => r.flatten
  | .deep l => l

/-- A saturation specification of one kind of channels: one function for all of them or one each. -/
inductive Sat where
  | all (s : String)
  | each (l : List String)

/-- The four kinds of channels with saturation. -/
inductive Kind where
  | media
  | rf
  | organicMedia
  | organicRf
deriving DecidableEq

/-- The Hill parameters of a kind of channels, `meridian/analysis/analyzer.py:3443-3464`, with the
names of `meridian/constants.py:301-321`. -/
def hillNames : Kind → List String
  | .media => ["ec_m", "slope_m"]
  | .rf => ["ec_rf", "slope_rf"]
  | .organicMedia => ["ec_om", "slope_om"]
  | .organicRf => ["ec_orf", "slope_orf"]

/-- The kinds, in the order of the code. -/
def kinds : List Kind := [.media, .rf, .organicMedia, .organicRf]

/-- The parts of the model that are used: the number of channels and the saturation of each kind
(`SaturationSpec`, which is never `None` here), and which priors are deterministic
(`has_deterministic_param`). -/
structure Ctx where
  n : Kind → ℕ
  sat : Kind → Sat
  deterministic : String → Bool

/-- `is_linear_mask`, `meridian/analysis/analyzer.py:3470-3477`. -/
def linearMask (c : Ctx) (k : Kind) : List Bool :=
  match c.sat k with
  | .all s => List.replicate (c.n k) (s == "none")
  | .each l => l.map (· == "none")

/-- `mask_mapping`, `meridian/analysis/analyzer.py:3466-3479`. -/
def maskMapping (c : Ctx) : List (String × List Bool) :=
  kinds.flatMap fun k => if c.n k = 0 then [] else (hillNames k).map fun p => (p, linearMask c k)

/-- `backend.where(mask, nan, v)` for a value with one entry for each channel; other shapes do not
occur for Hill parameters and are left alone. -/
def maskTensor (m : List Bool) : Tensor → Tensor
  | .vec l => .vec ((m.zip l).map fun p => if p.1 then .nan else p.2)
  | t => t

/-- The masked R-hat values, `meridian/analysis/analyzer.py:3481-3488`. -/
def masked (c : Ctx) (rhat : List (String × Tensor)) : List (String × Tensor) :=
  rhat.map fun p =>
    match (maskMapping c).lookup p.1 with
    | some m => (p.1, maskTensor m p.2)
    | none => p

/-- `np.nanmax`: NaN if there is no other value. -/
def nanmax (l : List Fl) : Fl :=
  l.foldl (fun b x => if b.isNan then x else if lt b x then x else b) .nan

/-- A row of the summary. -/
structure Row where
  param : String
  nParams : ℕ
  avg : Fl
  max : Fl
  percentBad : Fl
  rowIdx : List ℕ
  colIdx : List ℕ
deriving DecidableEq

/-- Errors. -/
inductive Err where
  | unexpectedDimension
deriving DecidableEq

/-- `np.where(v > threshold)[0]`. -/
def badIdx (thr : Fl) (l : List Fl) : List ℕ :=
  (List.range l.length).filter fun i => gt (l.getD i .nan) thr

/-- `np.where(m > threshold)`: the pairs of row and column, row by row. -/
def badPairs (thr : Fl) (rows : List (List Fl)) : List (ℕ × ℕ) :=
  (List.range rows.length).flatMap fun i => (badIdx thr (rows.getD i [])).map fun j => (i, j)

/-- A boolean array as numbers. -/
def asNum (b : Bool) : Fl := .fin (if b then 1 else 0)

/-- One row of the summary, `meridian/analysis/analyzer.py:3546-3568`. -/
def rowOf (thr : Fl) (param : String) (t : Tensor) : Except Err Row :=
  let mk (r c : List ℕ) : Row :=
    ⟨param, t.flat.length, nanmean t.flat, nanmax t.flat,
      nanmean (t.flat.map fun x => asNum (gt x thr)), r, c⟩
  match t with
  | .mat rows => .ok (mk ((badPairs thr rows).map Prod.fst) ((badPairs thr rows).map Prod.snd))
  | .vec l => .ok (mk (badIdx thr l) [])
  | .scalar _ => .ok (mk [] [])
  | .deep _ => .error .unexpectedDimension

/-- The name looked up in the priors, `meridian/analysis/analyzer.py:3538-3540`. -/
def priorName (param : String) : String :=
  if param = "tau_g" then "tau_g_excl_baseline" else param

/-- The loop of `rhat_summary` over the masked values, `meridian/analysis/analyzer.py:3534-3569`. -/
def rows (c : Ctx) (thr : Fl) : List (String × Tensor) → Except Err (List Row)
  | [] => .ok []
  | (p, t) :: l =>
    if c.deterministic (priorName p) then rows c thr l
    else match rowOf thr p t with
      | .error e => .error e
      | .ok r => match rows c thr l with
        | .error e => .error e
        | .ok rs => .ok (r :: rs)

/-- `rhat_summary`, `meridian/analysis/analyzer.py:3490-3569`. -/
def summary (c : Ctx) (thr : Fl) (rhat : List (String × Tensor)) : Except Err (List Row) :=
  rows c thr (masked c rhat)

/-! ## The convergence check -/

/-- `ConvergenceConfig`, `meridian/analysis/review/configs.py:27-43`. -/
structure Config where
  convergence : Fl
  notFully : Fl

/-- `ConvergenceCases`, `meridian/analysis/review/results.py:123-159`. -/
inductive Case where
  | converged
  | notFullyConverged
  | notConverged
deriving DecidableEq

/-- The result of the check. -/
structure Result where
  case : Case
  maxRhat : Fl
  maxParameter : Option String
deriving DecidableEq

/-- Python's `max(items, key=...)` on a non-empty list: the current item is replaced by a later one
only if the later key is greater. -/
def pyMax (a : String × Fl) (l : List (String × Fl)) : String × Fl :=
  l.foldl (fun b x => if gt x.2 b.2 then x else b) a

/-- The case of a value, `meridian/analysis/review/checks.py:153-164`. -/
def caseOf (cfg : Config) (m : Fl) : Case :=
  if lt m cfg.convergence then .converged
  else if le cfg.convergence m && lt m cfg.notFully then .notFullyConverged
  else .notConverged

/-- The maximum of every parameter, `meridian/analysis/review/checks.py:138`. -/
def maxima (rhat : List (String × Tensor)) : List (String × Fl) :=
  rhat.map fun p => (p.1, nanmax p.2.flat)

/-- `ConvergenceCheck.run`, `meridian/analysis/review/checks.py:134-174`, on the masked values.  The
maximum is taken over `max_rhats`, not over `valid_rhat_items`. -/
def check (cfg : Config) (rhat : List (String × Tensor)) : Result :=
  if (maxima rhat).all fun p => p.2.isNan then ⟨.converged, .nan, none⟩
  else match maxima rhat with
    | [] => ⟨.converged, .nan, none⟩
    | a :: l => ⟨caseOf cfg (pyMax a l).2, (pyMax a l).2, some (pyMax a l).1⟩

end Verif.Rhat
