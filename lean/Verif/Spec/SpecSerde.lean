import Verif.Model.SpecSerde

/-!
# When two specifications are equivalent
-/

namespace Verif.SpecSerde.Spec

open Verif Verif.SpecSerde
open Verif.Options (Choice)

/-- The same rule for a baseline: "min" and "max" in any case, or a number up to 32-bit rounding. -/
inductive SameBase (f32 : ℚ → ℚ) : Base → Base → Prop
  | min {s : String} (h : s.toLower = "min") : SameBase f32 (.str s) (.str "min")
  | max {s : String} (h : s.toLower = "max") : SameBase f32 (.str s) (.str "max")
  | num (q : ℚ) : SameBase f32 (.num q) (.num (f32 q))

/-- The same functions for every channel: equal, or an empty mapping and the default for all. -/
def SameChoice (default : String) (a b : Choice) : Prop :=
  a = b ∨ a = .byChannel [] ∧ b = .all default

/-- `b` is a specification equivalent to `a`. -/
structure Equivalent {α : Type} (f32 : ℚ → ℚ) (a b : SpecSerde.Spec α) : Prop where
  effects : b.effects = a.effects
  hillBeforeAdstock : b.hillBeforeAdstock = a.hillBeforeAdstock
  maxLag : b.maxLag = a.maxLag
  uniqueSigma : b.uniqueSigma = a.uniqueSigma
  mediaPrior : b.mediaPrior = a.mediaPrior
  rfPrior : b.rfPrior = a.rfPrior
  paidPrior : b.paidPrior = a.paidPrior
  roiCalibration : b.roiCalibration = a.roiCalibration
  rfRoiCalibration : b.rfRoiCalibration = a.rfRoiCalibration
  organicMediaPrior : b.organicMediaPrior = a.organicMediaPrior
  organicRfPrior : b.organicRfPrior = a.organicRfPrior
  nonMediaPrior : b.nonMediaPrior = a.nonMediaPrior
  baselines : (a.baselines = none ∧ b.baselines = none) ∨
    ∃ la lb, a.baselines = some la ∧ b.baselines = some lb ∧ List.Forall₂ (SameBase f32) la lb
  knots : b.knots = a.knots
  baselineGeo : b.baselineGeo = a.baselineGeo
  holdout : b.holdout = a.holdout
  controlScaling : b.controlScaling = a.controlScaling
  nonMediaScaling : b.nonMediaScaling = a.nonMediaScaling
  adstock : SameChoice "geometric" a.adstock b.adstock
  saturation : SameChoice "hill" a.saturation b.saturation
  enableAks : b.enableAks = a.enableAks

/-- The options that the message can hold: 32-bit integers, baselines that are "min", "max" or
Python numbers, a baseline geo that is not a numpy integer, and mappings or strings as function
choices. -/
structure Storable {α : Type} (s : SpecSerde.Spec α) : Prop where
  maxLag : ∀ k, s.maxLag = some k → 0 ≤ k ∧ k < 2 ^ 32
  knotsInt : ∀ k, s.knots = .int k → -2 ^ 31 ≤ k ∧ k < 2 ^ 31
  knotsList : ∀ l, s.knots = .list l → ∀ k ∈ l, -2 ^ 31 ≤ k ∧ k < 2 ^ 31
  geo : (∃ k, s.baselineGeo = .int k ∧ -2 ^ 31 ≤ k ∧ k < 2 ^ 31) ∨
    (∃ n, s.baselineGeo = .str n) ∨ s.baselineGeo = .none
  adstock : s.adstock ≠ .other
  baselines : ∀ l, s.baselines = some l → l ≠ [] ∧
    ∀ b ∈ l, (∃ q, b = .num q) ∨ ∃ t, b = .str t ∧ (t.toLower = "min" ∨ t.toLower = "max")

end Verif.SpecSerde.Spec
