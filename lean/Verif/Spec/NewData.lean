import Verif.Model.NewData

/-!
# Which new data an analysis accepts
-/

namespace Verif.NewData.Spec

open Verif.Selection (Item)

variable {α : Type}

/-- Each variable has one of its numbers of dimensions. -/
def WellFormed (d : Data α) : Prop := ∀ f t, d f = some t → t.ndim ∈ dims f

/-- The documented shapes: revenue per KPI by geo and time, spend by channel or by geo, time and channel,
one list of times, everything else by geo, time and channel. -/
structure DocumentedShapes (d : Data α) : Prop where
  revenue : ∀ t, d .revenuePerKpi = some t → t.shape.length = 2
  spend : ∀ f t, f = .mediaSpend ∨ f = .rfSpend → d f = some t → t.shape.length = 1 ∨ t.shape.length = 3
  times : ∀ t, d .time = some t → t.shape.length = 1
  others : ∀ f t, f ≠ .revenuePerKpi → f ≠ .mediaSpend → f ≠ .rfSpend → f ≠ .time → d f = some t →
    t.shape.length = 3

/-- The variables of a model. -/
structure Regular (C : Ctx α) : Prop where
  dims : WellFormed C.hist
  geos : ∀ f t, C.hist f = some t → t.ndim ≠ 1 → t.dim 0 = C.nGeos
  rf : (C.hist .rfImpressions).isSome ↔ C.nRf ≠ 0
  time : (C.hist .time).isSome

/-- The used variables fit the model: the model has them, with the same geos and channels. -/
structure Fits (C : Ctx α) (req : List Field) (d : Data α) : Prop where
  known : ∀ f ∈ req, (d f).isSome → (C.hist f).isSome
  geos : ∀ f ∈ req, ∀ t, d f = some t → t.ndim ≠ 1 → t.dim 0 = C.nGeos
  channels : ∀ f ∈ req, f ≠ .revenuePerKpi → f ≠ .time → ∀ t o, d f = some t → C.hist f = some o →
    t.last = o.last

/-- Two tensors of a variable differ in their number of periods; only those with a time dimension count. -/
def Differ (n o : Tensor α) : Prop := n.ndim ≠ 1 ∧ o.ndim ≠ 1 ∧ n.dim 1 ≠ o.dim 1

/-- No variable differs from the model in the number of periods. -/
def SamePeriods (C : Ctx α) (d : Data α) : Prop :=
  ∀ f t o, d f = some t → C.hist f = some o → ¬ Differ t o

/-- A tensor has `T` periods: the time coordinates are that many, the others have that length along time. -/
def HasPeriods (f : Field) (t : Tensor α) (T : ℕ) : Prop :=
  if f = .time then t.dim 0 = T else t.ndim ≠ 1 ∧ t.dim 1 = T

/-- A tensor has the periods of the one of the model; a total spend has none. -/
def Matches (f : Field) (t o : Tensor α) : Prop :=
  if f = .time then t.dim 0 = o.dim 0 else t.ndim = 1 ∨ (o.ndim ≠ 1 ∧ t.dim 1 = o.dim 1)

/-- All used variables which the model has are given, with `T` periods. -/
def AllGiven (C : Ctx α) (req : List Field) (d : Data α) (T : ℕ) : Prop :=
  ∀ f ∈ req, (C.hist f).isSome → ∃ t, d f = some t ∧ HasPeriods f t T

/-- All variables which are given are used; time coordinates need not be. -/
def OnlyUsed (req : List Field) (d : Data α) : Prop := ∀ f, (d f).isSome → f ∈ req ∨ f = .time

/-- The data used: what is given, or else that of the model. -/
def Used (C : Ctx α) (req : List Field) (d x : Data α) : Prop :=
  (∀ f ∈ req, ∀ t, x f = some t ↔ d f = some t ∨ (d f = none ∧ C.hist f = some t)) ∧
  (∀ f, f ∉ req → f ≠ .time → x f = none) ∧ (.time ∉ req → x .time = d .time)

/-- A selection is empty, or one flag for each of `n` periods, or dates among the given ones. -/
def SelectionOk (norm : String → Option String) (times : Option (List String)) (n : ℕ)
    (sel : Option (List Item)) : Prop :=
  ∀ l, sel = some l → l = [] ∨ ((∀ i ∈ l, ∃ b, i = .flag b) ∧ l.length = n) ∨
    ∃ ts, times = some ts ∧ ∀ i ∈ l, ∃ s, i = .str s ∧ (norm s).isSome ∧ ∃ t ∈ ts, norm s = norm t

end Verif.NewData.Spec
