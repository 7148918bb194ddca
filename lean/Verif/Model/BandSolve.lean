import Mathlib.Data.Rat.Defs
import Mathlib.Algebra.Order.Field.Rat
import Mathlib.Data.Nat.Choose.Basic
import Mathlib.Data.Int.Notation

/-!
# The penalised spline solver of automatic knot selection

`meridian/model/knots.py`, class `AKS`: the banded matrix storage, the difference penalty, the LDL
factorisation, the banded solver and the ridge iteration.  Arithmetic is exact (rational), and the
1-based loop variables of the code are shifted by one where they are only used as `i - 1`.
-/

namespace Verif.BandSolve

/-- `for i in range(lo, hi): s = f(s, i)`. -/
def forRange {σ : Type} (lo hi : ℕ) (s : σ) (f : σ → ℕ → σ) : σ :=
  (List.range' lo (hi - lo)).foldl f s

/-- The `ValueError`s (and the reductions of empty arrays) of the functions below. -/
inductive Err where
  | zeroRow
  | notRotated
  | oneColumn
  | dimension
  | columns
  | emptyMax
deriving DecidableEq

/-- A band matrix in rotated form: `n` rows, `cols` columns, column 0 the diagonal, column `c` the
`c`-th superdiagonal (`meridian/model/knots.py:633-646`).  Entries outside the array are not read
by the code; the model gives them arbitrary values. -/
structure Rot where
  n : ℕ
  cols : ℕ
  at' : ℕ → ℕ → ℚ

/-- `M[r, c] = v`. -/
def set2 (M : ℕ → ℕ → ℚ) (r c : ℕ) (v : ℚ) : ℕ → ℕ → ℚ :=
  fun r' c' => if r' = r ∧ c' = c then v else M r' c'

/-- `x[i] = v`. -/
def set1 (x : ℕ → ℚ) (i : ℕ) (v : ℚ) : ℕ → ℚ := fun i' => if i' = i then v else x i'

/-- Index of the last non-zero entry of row `i`, `np.where(band_mat[i, :] != 0)[0][-1]`. -/
def lastNonzero (A : ℕ → ℕ → ℚ) (p i : ℕ) : Option ℕ :=
  ((List.range p).filter fun j => decide (A i j ≠ 0)).getLast?

/-- One pass of the bandwidth loop. -/
def bandStep (A : ℕ → ℕ → ℚ) (p l i : ℕ) : Except Err ℕ :=
  match lastNonzero A p i with
  | none => .error .zeroRow
  | some last => .ok (max l (last - i))

/-- The bandwidth loop of `_mat2rot`, `meridian/model/knots.py:647-651`.  `l` is the maximum of 0 and
`last - i`, so the truncated difference is used.  A row of zeros makes `lprime[-1]` fail. -/
def bandwidth (A : ℕ → ℕ → ℚ) (p : ℕ) : Except Err ℕ :=
  (List.range p).foldlM (bandStep A p) 0

/-- `_mat2rot`, `meridian/model/knots.py:633-660`, for a `p x p` matrix. -/
def mat2rot (A : ℕ → ℕ → ℚ) (p : ℕ) : Except Err Rot :=
  (bandwidth A p).map fun l =>
    { n := p, cols := l + 1, at' := fun r c => if r + c < p then A r (r + c) else 0 }

/-- `np.concatenate([rot, zeros column], axis=1)`, `meridian/model/knots.py:554-560`. -/
def Rot.pad (R : Rot) : Rot :=
  { R with cols := R.cols + 1, at' := fun r c => if c < R.cols then R.at' r c else 0 }

/-- `binom[t] = math.comb(diff, t) * (-1) ** t`, `meridian/model/knots.py:681-683`. -/
def binom (diff t : ℕ) : ℚ := (diff.choose t : ℚ) * (-1) ^ t

/-- `_band_weight`, `meridian/model/knots.py:662-700`. -/
def bandWeight (w : List ℚ) (diff : ℕ) : Rot :=
  let ws := w.length
  let rows := ws + diff
  { n := rows
    cols := diff + 1
    at' := fun i j =>
      if j < diff + 1 ∧ i < rows - j then
        let lo := (i + j) - diff
        let hi := if i < ws - 1 then i else ws - 1
        forRange lo (hi + 1) 0 fun temp k =>
          temp + binom diff (i - k) * binom diff (i + j - k) * w.getD k 0
      else 0 }

/-- `_ldl`, `meridian/model/knots.py:702-728`, in place, with `m` superdiagonals. -/
def ldl (n m : ℕ) (M : ℕ → ℕ → ℚ) : ℕ → ℕ → ℚ :=
  forRange 0 n M fun M i =>
    forRange (i - m) (i + 1) M fun M j =>
      let M := forRange (i - m) j M fun M k =>
        set2 M j (i - j) (M j (i - j) - M k (i - k) * M k (j - k) * M k 0)
      if j < i then set2 M j (i - j) (M j (i - j) / M j 0) else M

/-- The first loop of `_bandsolve_kernel`, `meridian/model/knots.py:754-758`. -/
def forward (n m : ℕ) (F : ℕ → ℕ → ℚ) (x : ℕ → ℚ) : ℕ → ℚ :=
  forRange 1 n x fun x i =>
    forRange 1 (min i m + 1) x fun x j => set1 x i (x i - F (i - j) j * x (i - j))

/-- The second loop, lines 760-762. -/
def diagSolve (n : ℕ) (F : ℕ → ℕ → ℚ) (x : ℕ → ℚ) : ℕ → ℚ :=
  forRange 0 n x fun x i => set1 x i (x i / F i 0)

/-- The third loop, lines 764-768: rows `n - 2` down to `0`. -/
def backward (n m : ℕ) (F : ℕ → ℕ → ℚ) (x : ℕ → ℚ) : ℕ → ℚ :=
  forRange 0 (n - 1) x fun x t =>
    let i := n - 2 - t
    forRange 1 (min (n - 1 - i) m + 1) x fun x j => set1 x i (x i - F i j * x (i + j))

/-- `_bandsolve_kernel`, `meridian/model/knots.py:730-770`, for one right-hand side.  Division by a
zero pivot (a numpy warning and infinities) is Lean's `x / 0 = 0` here; the theorems assume or prove
non-zero pivots. -/
def kernel (n m : ℕ) (M : ℕ → ℕ → ℚ) (b : ℕ → ℚ) : ℕ → ℚ :=
  let F := ldl n m M
  backward n m F (diagSolve n F (forward n m F b))

/-- `_bandsolve`, `meridian/model/knots.py:772-796`, for a vector right-hand side.  A rotated matrix
with a single column has no column 1 to test. -/
def bandsolve (R : Rot) (b : List ℚ) : Except Err (List ℚ) :=
  if R.n = R.cols ∧ R.at' (R.n - 1) (R.cols - 1) ≠ 0 then .error .notRotated
  else if R.cols < 2 then .error .oneColumn
  else if R.at' (R.n - 1) 1 ≠ 0 then .error .notRotated
  else if b.length ≠ R.n then .error .dimension
  else .ok ((List.range R.n).map (kernel R.n (R.cols - 1) R.at' fun i => b.getD i 0))

/-- `_hessian_solver`, `meridian/model/knots.py:833-858`, without the final `- par`. -/
def penalisedSolve (xx : Rot) (xy : List ℚ) (penalty : ℚ) (w : List ℚ) (diff : ℕ) :
    Except Err (List ℚ) :=
  if xx.cols ≠ diff + 1 then .error .columns
  else if xx.n ≠ (bandWeight w diff).n then .error .dimension
  else bandsolve
    { n := xx.n, cols := xx.cols,
      at' := fun r c => xx.at' r c + penalty * (bandWeight w diff).at' r c } xy

/-- The relative error of lines 870-871: `np.max` of an empty selection raises. -/
def relError (par old : List ℚ) : Except Err ℚ :=
  match (((par.zip old).filter fun p => decide (p.2 ≠ 0)).map fun p => |p.1 - p.2| / |p.2|).max? with
  | none => .error .emptyMax
  | some e => .ok e

/-- The loop of `_weighted_ridge_solver`, `meridian/model/knots.py:860-876`; `par` is `None` until
the first pass. -/
def ridgeLoop (xx : Rot) (xy : List ℚ) (penalty : ℚ) (w : List ℚ) (diff : ℕ) (tol : ℚ) :
    ℕ → Option (List ℚ) → List ℚ → Except Err (Option (List ℚ))
  | 0, par, _ => .ok par
  | fuel + 1, _, old => do
    let sol ← penalisedSolve xx xy penalty w diff
    let par := (old.zip (sol.zip old)).map fun p => p.1 + (p.2.1 - p.2.2)
    let e ← relError par old
    if e < tol then .ok (some par) else ridgeLoop xx xy penalty w diff tol fuel (some par) par

/-- `_weighted_ridge_solver` with its default `max_iterations` and `tol`. -/
def weightedRidge (xx : Rot) (xy : List ℚ) (degree : ℕ) (penalty : ℚ) (w old : List ℚ) :
    Except Err (Option (List ℚ)) :=
  ridgeLoop xx xy penalty w (degree + 1) (1 / 10 ^ 8) 1000 none old

end Verif.BandSolve
