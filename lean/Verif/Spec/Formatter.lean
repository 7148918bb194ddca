import Mathlib.Data.Rat.Defs
import Mathlib.Algebra.Order.Ring.Rat

/-!
# How a reader reads the numbers of a report
-/

namespace Verif.Formatter.Spec

/-- A decimal digit. -/
def IsDigit (c : Char) : Prop := 48 ≤ c.toNat ∧ c.toNat ≤ 57

/-- The natural number that digits stand for. -/
def natValue (l : List Char) : ℕ := l.foldl (fun a c => 10 * a + (c.toNat - 48)) 0

/-- The text is a number without sign, with `p` decimals, and `v` is its value. -/
def Plain (s : List Char) (p : ℕ) (v : ℚ) : Prop :=
  ∃ whole frac : List Char, s = whole ++ (if p = 0 then [] else '.' :: frac) ∧
    whole ≠ [] ∧ (∀ c ∈ whole, IsDigit c) ∧ (∀ c ∈ frac, IsDigit c) ∧ frac.length = p ∧
    (whole.head? = some '0' → whole = ['0']) ∧
    v = natValue whole + (natValue frac : ℚ) / 10 ^ p

/-- The letters for thousands, millions, billions and trillions. -/
def units : List (List Char × ℚ) :=
  [([], 1), (['k'], 1000), (['M'], 1000000), (['B'], 1000000000), (['T'], 1000000000000)]

/-- The text is a number with `p` decimals and a letter for its unit, after the sign and the currency, and
`v` is its value. -/
def Shows (negative : Bool) (currency s : List Char) (p : ℕ) (unit v : ℚ) : Prop :=
  ∃ letter body w, (letter, unit) ∈ units ∧ Plain body p w ∧
    s = (if negative then ['-'] else []) ++ currency ++ body ++ letter ∧
    v = (if negative then -1 else 1) * w * unit

/-- The text is a digit and a power of ten, and `v` is its value. -/
def Scientific (s : List Char) (v : ℚ) : Prop :=
  ∃ (d : Char) (neg : Bool) (e : List Char), IsDigit d ∧ (∀ c ∈ e, IsDigit c) ∧ 2 ≤ e.length ∧
    s = d :: 'e' :: (if neg then '-' else '+') :: e ∧
    v = natValue [d] * (10 : ℚ) ^ (if neg then -(natValue e : ℤ) else natValue e)

end Verif.Formatter.Spec
