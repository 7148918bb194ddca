import Mathlib.Data.Rat.Floor
import Mathlib.Algebra.Order.Floor.Ring

/-!
# Numbers as the code sees them

`Num` is a number or NaN.  Arithmetic is exact (rational); float rounding is not modelled
(DESIGN.md, section 1).  NaN is kept wherever the code uses it as a data value.
-/

namespace Verif

/-- A float cell that may be NaN (`none`).
Models the cells of `np.ndarray`s filled with `np.nan` in
`meridian/analysis/optimizer.py:2801,2809` (`np.full(..., np.nan)`). -/
abbrev Num := Option ℚ

namespace Num

/-- IEEE subtraction: NaN if either side is NaN.
Models `-` in `meridian/analysis/optimizer.py:410-411`. -/
def sub : Num → Num → Num
  | some a, some b => some (a - b)
  | _, _ => none

/-- IEEE addition: NaN if either side is NaN. -/
def add : Num → Num → Num
  | some a, some b => some (a + b)
  | _, _ => none

/-- `np.divide(num, den, out=zeros, where=(den != 0))`: zero where the denominator is zero
(`NaN != 0` is true in IEEE, so a NaN denominator is divided by and gives NaN).
Models `meridian/analysis/optimizer.py:412-417` and `454-459`. -/
def divWhere : Num → Num → Num
  | a, some b => if b = 0 then some 0 else a.map (· / b)
  | _, none => none

/-- IEEE `a < b`: false when either side is NaN. -/
def lt : Num → Num → Bool
  | some a, some b => decide (a < b)
  | _, _ => false

/-- Division without `where`, with NaN operands.  For a zero denominator numpy gives `±inf` or
NaN; the model returns NaN there (simplification: only reached for an all-zero total spend).
Models `meridian/analysis/optimizer.py:3198`. -/
def div : Num → Num → Num
  | some a, some b => if b = 0 then none else some (a / b)
  | _, _ => none

end Num

/-- `np.rint`: round to nearest, ties to even.
Models the integer step of `np.round` (numpy documentation; used at
`meridian/analysis/optimizer.py:418, 460, 3017-3019`). -/
def rint (x : ℚ) : ℤ :=
  let f := ⌊x⌋
  let r := x - f
  if r < 1 / 2 then f
  else if 1 / 2 < r then f + 1
  else if f % 2 = 0 then f else f + 1

/-- `np.round(x, decimals)`: `rint(x * 10**d) / 10**d` (exact powers of ten). -/
def npRound (x : ℚ) (d : ℤ) : ℚ := (rint (x * (10 : ℚ) ^ d) : ℚ) / (10 : ℚ) ^ d

/-- `x.astype(int)` for a finite float: truncation towards zero.
Models `meridian/analysis/optimizer.py:262, 421, 3017-3019`. -/
def truncInt (x : ℚ) : ℤ := if 0 ≤ x then ⌊x⌋ else ⌈x⌉

end Verif
