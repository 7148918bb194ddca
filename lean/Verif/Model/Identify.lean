import Mathlib.Algebra.BigOperators.Group.List.Basic
import Mathlib.Algebra.Order.Field.Rat

/-!
# Checks for variables without variation and channels without spend

`ModelContext._validate_geo_invariants`, `_validate_time_invariants` and
`_validate_spend_for_paid_channels`, `meridian/model/context.py:234-423`.
-/

namespace Verif.Identify

/-- A variable group in the data: names of the variables, number of times (media data may begin before
the KPI) and the scaled values by geo, time and variable. -/
structure Group where
  names : List String
  nTimes : ℕ
  x : ℕ → ℕ → ℕ → ℚ

/-- What the checks read.  A missing group is `none`. -/
structure Ctx where
  nGeos : ℕ
  nTimes : ℕ
  nKnots : ℕ
  controls : Option Group
  nonMedia : Option Group
  media : Option Group
  reach : Option Group
  organicMedia : Option Group
  organicReach : Option Group
  mediaSpend : Option (List (String × ℚ))
  rfSpend : Option (List (String × ℚ))

/-- The errors, with the names listed in the message. -/
inductive Err where
  | noGeoVariation (group : String) (names : List String)
  | noTimeVariation (group : String) (names : List String)
  | zeroSpend (names : List String)
deriving DecidableEq

/-- The population variance of `x 0, …, x (n-1)`. -/
def variance (n : ℕ) (x : ℕ → ℚ) : ℚ :=
  let m := ((List.range n).map x).sum / n
  ((List.range n).map fun i => (x i - m) ^ 2).sum / n

/-- `reduce_std(...) < epsilon` with `epsilon=1e-4`; the comparison is made on squares. -/
def flat (n : ℕ) (x : ℕ → ℚ) : Bool := variance n x < (1 / 10 ^ 4) ^ 2

/-- `get_indices_where(...)[:, 1]`: the columns of the true entries of a matrix, row by row. -/
def columnsWhere (nRows nCols : ℕ) (p : ℕ → ℕ → Bool) : List ℕ :=
  (List.range nRows).flatMap fun r => (List.range nCols).filter fun c => p r c

/-- `unique_with_counts`. -/
def uniqueWithCounts (l : List ℕ) : List (ℕ × ℕ) := l.eraseDups.map fun c => (c, l.count c)

/-- `boolean_mask(col_idx_unique, counts == n)` and the names gathered from it. -/
def badNames (names : List String) (cols : List ℕ) (n : ℕ) : List String :=
  ((uniqueWithCounts cols).filter fun p => p.2 = n).map fun p => names.getD p.1 ""

/-- `_check_if_no_geo_variation`, `meridian/model/context.py:282-313`. -/
def checkGeo (c : Ctx) (group : String) (g : Group) : Except Err Unit :=
  let cols := columnsWhere g.nTimes g.names.length fun t v => flat c.nGeos fun i => g.x i t v
  let bad := badNames g.names cols g.nTimes
  if bad ≠ [] ∧ c.nKnots = c.nTimes then .error (.noGeoVariation group bad) else .ok ()

/-- `_check_if_no_time_variation`, `meridian/model/context.py:395-429`. -/
def checkTime (c : Ctx) (group : String) (g : Group) : Except Err Unit :=
  let cols := columnsWhere c.nGeos g.names.length fun i v => flat g.nTimes fun t => g.x i t v
  let bad := badNames g.names cols c.nGeos
  if bad ≠ [] then .error (.noTimeVariation group bad) else .ok ()

/-- The groups checked, in order; frequencies are not among them. -/
def groups (c : Ctx) : List (String × Option Group) :=
  [("controls", c.controls), ("non_media_treatments", c.nonMedia), ("media", c.media),
   ("reach", c.reach), ("organic_media", c.organicMedia), ("organic_reach", c.organicReach)]

/-- A check of each group that is present. -/
def eachGroup (f : String → Group → Except Err Unit) : List (String × Option Group) → Except Err Unit
  | [] => .ok ()
  | (_, none) :: rest => eachGroup f rest
  | (n, some g) :: rest =>
    match f n g with
    | .error e => .error e
    | .ok () => eachGroup f rest

/-- `_validate_spend_for_paid_channels`, `meridian/model/context.py:370-393`. -/
def checkSpend : Option (List (String × ℚ)) → Except Err Unit
  | none => .ok ()
  | some l =>
    let zero := (l.filter fun p => p.2 = 0).map fun p => p.1
    if zero ≠ [] then .error (.zeroSpend zero) else .ok ()

/-- The last four checks of `ModelContext.__init__`, `meridian/model/context.py:108-111`. -/
def validate (c : Ctx) : Except Err Unit :=
  match (if c.nGeos = 1 then .ok () else eachGroup (checkGeo c) (groups c)) with
  | .error e => .error e
  | .ok () =>
    match eachGroup (checkTime c) (groups c) with
    | .error e => .error e
    | .ok () =>
      match checkSpend c.mediaSpend with
      | .error e => .error e
      | .ok () => checkSpend c.rfSpend

end Verif.Identify
