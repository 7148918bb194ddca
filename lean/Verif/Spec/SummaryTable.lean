import Verif.Spec.Formatter
import Verif.Model.Summary
import Verif.Model.Num

/-!
# How a reader reads the table of the media summary
-/

namespace Verif.SummaryTable.Spec

open Verif.Formatter.Spec Verif.Summary Verif

/-- Digits in groups of three, separated by commas; only the first group may be shorter. -/
def Thousands (s digits : List Char) : Prop :=
  ∃ first : List Char, ∃ rest : List (List Char),
    s = first ++ rest.flatMap (fun g => ',' :: g) ∧ digits = first ++ rest.flatten ∧
    1 ≤ first.length ∧ first.length ≤ 3 ∧ ∀ g ∈ rest, g.length = 3

/-- The text is a number with `p` decimals and commas, and `v` is its value. -/
def Reads (s : List Char) (p : ℕ) (v : ℚ) : Prop :=
  ∃ (negative : Bool) (grouped whole frac : List Char),
    s = (if negative then ['-'] else []) ++ grouped ++ (if p = 0 then [] else '.' :: frac) ∧
    Thousands grouped whole ∧ (∀ c ∈ whole, IsDigit c) ∧ (∀ c ∈ frac, IsDigit c) ∧ frac.length = p ∧
    (whole.head? = some '0' → whole = ['0']) ∧
    v = (if negative then -1 else 1) * (natValue whole + (natValue frac : ℚ) / 10 ^ p)

/-- What stands before a number: the currency for costs per unit, and, if the outcome is revenue, for
spend and incremental outcome. -/
def before (useRevenue : Bool) (currency : List Char) (v : Var) : List Char :=
  match v with
  | .cpm | .cpik => currency
  | .spend | .incrementalOutcome => if useRevenue then currency else []
  | _ => []

/-- What stands after a number. -/
def after (v : Var) : List Char :=
  match v with
  | .pctOfContribution | .pctOfImpressions | .pctOfSpend => ['%']
  | _ => []

/-- The text shows the number `x` with `p` decimals, between the units, and is read as `v`, which is at most
half a unit of the last decimal away. -/
def Shows (useRevenue : Bool) (currency : List Char) (q : Var) (p : ℕ) (s : List Char) (x v : ℚ) : Prop :=
  ∃ body, s = before useRevenue currency q ++ body ++ after q ∧ Reads body p v ∧
    |v - x| ≤ 1 / 10 ^ p / 2

/-- The same for a number that may be NaN. -/
def ShowsNum (useRevenue : Bool) (currency : List Char) (q : Var) (p : ℕ) (s : List Char) : Num → Prop
  | some x => ∃ v, Shows useRevenue currency q p s x v
  | none => s = before useRevenue currency q ++ ['n', 'a', 'n'] ++ after q

/-- The quantities that are known for a paid channel without the model. -/
def Given (nonPaid : Bool) (v : Var) : Prop :=
  nonPaid = false ∧ (v = .impressions ∨ v = .pctOfImpressions ∨ v = .spend ∨ v = .pctOfSpend ∨ v = .cpm)

/-- The quantities estimated by the model; some of them only for paid channels. -/
def Estimated (nonPaid : Bool) (v : Var) : Prop :=
  v = .incrementalOutcome ∨ v = .pctOfContribution ∨ v = .effectiveness ∨
    nonPaid = false ∧ (v = .roi ∨ v = .mroi ∨ v = .cpik)

/-- The central value of an estimate. -/
def central (v : Var) : Stat := if v = .cpik then .median else .mean

/-- The distribution is in the table. -/
def Included (includePrior includePosterior : Bool) (dist : Dist) : Prop :=
  dist = .prior ∧ includePrior = true ∨ dist = .posterior ∧ includePosterior = true

/-- `x` is one of the numbers the table shows for the quantity `v`. -/
def Value (n : ℕ) (input : Var → ℕ → Num) (result : Var → Dist → Stat → ℕ → Num)
    (includePrior includePosterior nonPaid : Bool) (v : Var) (x : Num) : Prop :=
  ∃ c < n, Given nonPaid v ∧ x = input v c ∨
    Estimated nonPaid v ∧ ∃ dist st, Included includePrior includePosterior dist ∧
      (st = central v ∨ st = .ciLo ∨ st = .ciHi) ∧ x = result v dist st c

end Verif.SummaryTable.Spec
