import Mathlib.Data.List.Basic
import Mathlib.Algebra.BigOperators.Group.List.Basic

/-!
# Joint distributions of independent elements

`IndependentMultivariateDistribution`, `meridian/model/prior_distribution.py:988-1221`.

A distribution of the backend is the list of its batch elements, each with its density, quantile
function, distribution function, mean and variance, and a sampler that draws the whole batch from a
seed.  `R` is the type of numbers, `σ` the type of seeds (a seed is given; without one the backend
chooses a new seed at every call).  Tensors of values have a last dimension, the other dimensions are
flattened to rows.
-/

namespace Verif.Multi

/-- One element of the batch of a distribution. -/
structure Elem (R : Type) where
  logProb : R → R
  quantile : R → R
  logCdf : R → R
  mean : R
  variance : R

/-- The batch: shape `[]`, shape `[n]`, or more dimensions. -/
inductive Batch (R : Type) where
  | scalar (e : Elem R)
  | vec (l : List (Elem R))
  | higher

/-- A distribution; `draw seed n i j` is element `j` of sample `i` of `sample(n, seed)` (element 0 for a
scalar batch). -/
structure Dist (R σ : Type) where
  deterministic : Bool
  dtype : String
  batch : Batch R
  draw : σ → ℕ → ℕ → ℕ → R

/-- The errors. -/
inductive Err where
  | deterministic
  | dimensions
  | empty
  | dtypes
  | broadcast
  | split
deriving DecidableEq

variable {R σ : Type}

/-- A component: its elements and its sampler. -/
structure Comp (R σ : Type) where
  elems : List (Elem R)
  draw : σ → ℕ → ℕ → ℕ → R

/-- The component of a distribution, lines 1053-1058 and 1203-1220: a scalar batch is broadcast to one
element. -/
def component (d : Dist R σ) : Except Err (Comp R σ) :=
  match d.batch with
  | .scalar e => .ok ⟨[e], d.draw⟩
  | .vec l => .ok ⟨l, d.draw⟩
  | .higher => .error .dimensions

/-- The components of all distributions. -/
def components : List (Dist R σ) → Except Err (List (Comp R σ))
  | [] => .ok []
  | d :: rest =>
    match component d with
    | .error e => .error e
    | .ok c =>
      match components rest with
      | .error e => .error e
      | .ok l => .ok (c :: l)

/-- `_verify_dtypes`, lines 1104-1111: exactly one dtype. -/
def sameDtypes : List (Dist R σ) → Bool
  | [] => false
  | d :: rest => rest.all fun e => e.dtype = d.dtype

/-- `__init__`, lines 1018-1083.  No distributions: the concatenation of no tensors fails. -/
def make (l : List (Dist R σ)) : Except Err (List (Comp R σ)) :=
  if l.any fun d => d.deterministic then .error .deterministic
  else
    match components l with
    | .error e => .error e
    | .ok cs =>
      if cs.isEmpty then .error .empty
      else if sameDtypes l then .ok cs
      else .error .dtypes

/-- The block sizes, lines 1203-1220. -/
def sizes (cs : List (Comp R σ)) : List ℕ := cs.map fun c => c.elems.length

/-- `batch_shape`, lines 1116-1124. -/
def batchSize (cs : List (Comp R σ)) : ℕ := (sizes cs).sum

/-- A tensor of values: a scalar, or rows of a given width. -/
inductive Value (R : Type) where
  | scalar (x : R)
  | rows (width : ℕ) (l : List (List R))

/-- `_broadcast_value`, lines 1195-1200, to the shape `[n]`: the width and the rows; a scalar becomes
one row. -/
def broadcastValue (n : ℕ) : Value R → Except Err (ℕ × List (List R))
  | .scalar x => .ok (n, [List.replicate n x])
  | .rows w l =>
    if w = n then .ok (n, l)
    else if w = 1 then .ok (n, l.map fun r => r.flatMap fun x => List.replicate n x)
    else if n = 1 then .ok (w, l)
    else .error .broadcast

/-- The blocks of one row in `backend.split(value, sizes, axis=-1)`. -/
def splitRow : List ℕ → List R → List (List R)
  | [], _ => []
  | n :: ns, r => r.take n :: splitRow ns (r.drop n)

/-- A function of the elements applied to a block. -/
def applyBlock (f : Elem R → R → R) (es : List (Elem R)) (xs : List R) : List R :=
  List.zipWith f es xs

/-- One row of `_quantile`, `_log_prob` or `_log_cdf`: split, apply, concatenate. -/
def evalRow (f : Elem R → R → R) (cs : List (Comp R σ)) (row : List R) : List R :=
  (List.zipWith (fun c b => applyBlock f c.elems b) cs (splitRow (sizes cs) row)).flatten

/-- `_quantile`, `_log_prob` and `_log_cdf`, lines 1139-1168; the split fails unless the sizes add up
to the width. -/
def eval (f : Elem R → R → R) (cs : List (Comp R σ)) (v : Value R) : Except Err (List (List R)) :=
  match broadcastValue (batchSize cs) v with
  | .error e => .error e
  | .ok (w, rows) => if (sizes cs).sum = w then .ok (rows.map (evalRow f cs)) else .error .split

/-- `log_prob`, lines 1148-1156. -/
def logProb (cs : List (Comp R σ)) (v : Value R) := eval Elem.logProb cs v

/-- `quantile`, lines 1139-1146. -/
def quantile (cs : List (Comp R σ)) (v : Value R) := eval Elem.quantile cs v

/-- `log_cdf`, lines 1158-1167. -/
def logCdf (cs : List (Comp R σ)) (v : Value R) := eval Elem.logCdf cs v

/-- `mean`, lines 1169-1172. -/
def mean (cs : List (Comp R σ)) : List R := cs.flatMap fun c => c.elems.map Elem.mean

/-- `variance`, lines 1174-1177. -/
def variance (cs : List (Comp R σ)) : List R := cs.flatMap fun c => c.elems.map Elem.variance

/-- Sample `i` of `sample(n, seed)`, `_sample_n`, lines 1134-1137: every component is given the seed. -/
def sampleRow (cs : List (Comp R σ)) (seed : σ) (n i : ℕ) : List R :=
  cs.flatMap fun c => (List.range c.elems.length).map fun j => c.draw seed n i j

/-- `sample(n, seed)`. -/
def sample (cs : List (Comp R σ)) (seed : σ) (n : ℕ) : List (List R) :=
  (List.range n).map (sampleRow cs seed n)

end Verif.Multi
