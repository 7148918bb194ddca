import Mathlib.Data.Int.Log
import Verif.Model.Num

/-!
# Numbers in the reports

`meridian/templates/formatter.py`, and the figures of a budget optimization in
`meridian/analysis/optimizer.py`.  Text is a list of characters.  Numbers are exact and finite; Python
rounds the exact value of a float to the nearest decimal, ties to even.
-/

namespace Verif.Formatter

open Verif

/-- Text. -/
abbrev Text := List Char

/-- The decimal digits of a natural number, without leading zeros (`fuel` at least the number). -/
def intDigits : ℕ → ℕ → Text
  | 0, n => [Nat.digitChar n]
  | fuel + 1, n => if n < 10 then [Nat.digitChar n] else intDigits fuel (n / 10) ++ [Nat.digitChar (n % 10)]

/-- The last `k` decimal digits. -/
def lastDigits : ℕ → ℕ → Text
  | 0, _ => []
  | k + 1, n => lastDigits k (n / 10) ++ [Nat.digitChar (n % 10)]

/-- `'{:.pf}'.format(x)` without the sign: `m` is the rounded number in units of the last decimal. -/
def unsigned (m p : ℕ) : Text :=
  intDigits (m / 10 ^ p) (m / 10 ^ p) ++ (if p = 0 then [] else '.' :: lastDigits p m)

/-- `'{:.pf}'.format(x)`. -/
def fixed (x : ℚ) (p : ℕ) : Text :=
  (if x < 0 then ['-'] else []) ++ unsigned (rint (|x| * 10 ^ p)).toNat p

/-- `millnames`, `meridian/templates/formatter.py:158`. -/
def millNames : List Text := [[], ['k'], ['M'], ['B'], ['T']]

/-- `millidx`, `meridian/templates/formatter.py:159-165`: `floor(log10(x) / 3)` is the logarithm to base
1000, rounded down. -/
def millIdx (n : ℚ) : ℕ := (max 0 (min 4 (if n = 0 then 0 else Int.log 1000 |n|))).toNat

/-- `compact_number`, `meridian/templates/formatter.py:144-174`. -/
def compact (n : ℚ) (p : ℕ) (currency : Text) : Text :=
  let suffixed := fixed (n / 10 ^ (3 * millIdx n)) p ++ millNames.getD (millIdx n) []
  if n < 0 then suffixed.take 1 ++ currency ++ suffixed.drop 1 else currency ++ suffixed

/-- `int(math.log10(x))` for a positive number: truncated towards zero. -/
def intLog10 (x : ℚ) : ℤ := if 1 ≤ x then Int.log 10 x else Int.clog 10 x

/-- `format_monetary_num`, `meridian/templates/formatter.py:208-211`. -/
def monetary (n : ℚ) (currency : Text) : Text :=
  compact n (if n ≠ 0 ∧ intLog10 |n| % 3 = 0 then 1 else 0) currency

/-- The significant digit and the exponent of `'{:.1g}'` for a positive number. -/
def oneDigit (x : ℚ) : ℕ × ℤ :=
  let e := Int.log 10 x
  let m := (rint (x / 10 ^ e)).toNat
  if m = 10 then (1, e + 1) else (m, e)

/-- `'{:.1g}'.format(x)`: a plain number for exponents from -4 to 0, otherwise with an exponent of at
least two digits. -/
def general1 (x : ℚ) : Text :=
  if x = 0 then ['0']
  else
    let d := (oneDigit |x|).1
    let e := (oneDigit |x|).2
    (if x < 0 then ['-'] else []) ++
      (if e = 0 then [Nat.digitChar d]
       else if -4 ≤ e ∧ e < 0 then
         '0' :: '.' :: (List.replicate (e.natAbs - 1) '0' ++ [Nat.digitChar d])
       else
         Nat.digitChar d :: 'e' :: (if e < 0 then '-' else '+') ::
           (if e.natAbs < 10 then ['0', Nat.digitChar e.natAbs] else intDigits e.natAbs e.natAbs))

/-- `format_percent`, `meridian/templates/formatter.py:126-141`. -/
def percent (x : ℚ) : Text :=
  if 1 / 100 ≤ x then fixed (x * 100) 0 ++ ['%'] else general1 (x * 100) ++ ['%']

/-- `format_number_text`, `meridian/templates/formatter.py:193-205`.  `str` of a float with one decimal is
its plain notation (for numbers below 10 to the power 16). -/
def numberText (pct value : ℚ) : Text :=
  fixed (pct * 100) 1 ++ ['%', ' ', '('] ++ compact value 0 [] ++ [')']

/-! ### The figures of a budget optimization -/

/-- A figure with its change. -/
structure Stat where
  stat : Text
  delta : Text
deriving DecidableEq

/-- `'+' if x > 0 else ''`. -/
def plus (x : ℚ) : Text := if 0 < x then ['+'] else []

/-- Budgets, `meridian/analysis/optimizer.py:1254-1272`. -/
def budgetStats (non opt : ℚ) (currency : Text) : Text × Stat :=
  (monetary non currency, ⟨monetary opt currency, plus (opt - non) ++ monetary (opt - non) currency⟩)

/-- ROI, `meridian/analysis/optimizer.py:1275-1284`; `round(x, 1)` (the sign
of a zero is not modelled). -/
def roiStats (non opt : ℚ) : Text × Stat :=
  let diff := npRound (opt - non) 1
  (fixed (npRound non 1) 1, ⟨fixed (npRound opt 1) 1, plus diff ++ fixed diff 1⟩)

/-- Cost per incremental KPI, `meridian/analysis/optimizer.py:1286-1295`. -/
def cpikStats (non opt : ℚ) (currency : Text) : Text × Stat :=
  (currency ++ fixed non 2, ⟨currency ++ fixed opt 2, compact (opt - non) 2 currency⟩)

/-- Incremental outcome, `meridian/analysis/optimizer.py:1306-1331`; the currency is empty for a KPI. -/
def outcomeStats (non opt : ℚ) (currency : Text) : Text × Stat :=
  (compact non 0 currency,
    ⟨compact opt 0 currency, plus (opt - non) ++ compact (opt - non) 0 currency⟩)

end Verif.Formatter
