import Verif.Model.Multi

/-!
# What a user expects of a joint distribution of independent elements

The distribution has one element for every element of the given distributions, in their order, and
everything is computed element by element.
-/

namespace Verif.Multi.Spec

open Verif.Multi

variable {R σ : Type}

/-- The elements of a given distribution. -/
def elemsOf (d : Dist R σ) : List (Elem R) :=
  match d.batch with
  | .scalar e => [e]
  | .vec l => l
  | .higher => []

/-- The elements of all given distributions, in order. -/
def allElems (l : List (Dist R σ)) : List (Elem R) := l.flatMap elemsOf

/-- Whether the distributions may be combined. -/
def Combinable (l : List (Dist R σ)) : Prop :=
  l ≠ [] ∧ (∀ d ∈ l, d.deterministic = false) ∧ (∀ d ∈ l, d.batch ≠ .higher) ∧
    ∀ d ∈ l, ∀ e ∈ l, d.dtype = e.dtype

/-- The rows of a value have their width. -/
def WellFormed : Value R → Prop
  | .scalar _ => True
  | .rows w l => ∀ r ∈ l, r.length = w

/-- A value fits `n` elements: one number for all, or one for each. -/
def Fits (n : ℕ) : Value R → Prop
  | .scalar _ => True
  | .rows w _ => w = 1 ∨ w = n

/-- The number of rows of the result. -/
def nRows : Value R → ℕ
  | .scalar _ => 1
  | .rows _ l => l.length

/-- The number given for element `j` in row `i`. -/
def entry : Value R → ℕ → ℕ → Option R
  | .scalar x, _, _ => some x
  | .rows w l, i, j => (l[i]?).bind fun r => if w = 1 then r[0]? else r[j]?

/-- `out` is the function of each element at the number given for it. -/
def Elementwise (f : Elem R → R → R) (elems : List (Elem R)) (v : Value R) (out : List (List R)) :
    Prop :=
  out.length = nRows v ∧ ∀ i, ∀ row, out[i]? = some row → row.length = elems.length ∧
    ∀ j e, elems[j]? = some e → ∃ x, entry v i j = some x ∧ row[j]? = some (f e x)

end Verif.Multi.Spec
