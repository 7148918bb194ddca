import Verif.Model.Options

/-!
# What is expected of options by channel and of the model specification
-/

namespace Verif.Options.Spec

open Verif.Options

/-- No key occurs twice. -/
def IsDict {α : Type} (m : List (String × α)) : Prop := (m.map Prod.fst).Nodup

/-- The key occurs. -/
def HasKey {α : Type} (m : List (String × α)) (c : String) : Prop := ∃ v, (c, v) ∈ m

/-- `v` is the value of `c`, or the default if `c` is not given. -/
def ValueOf {α : Type} (m : List (String × α)) (default : α) (c : String) (v : α) : Prop :=
  (c, v) ∈ m ∨ ¬ HasKey m c ∧ v = default

/-- A channel that adstock and Hill are applied to. -/
def Known (c : Channels) (ch : String) : Prop :=
  ∃ l, (c.media = some l ∨ c.rf = some l ∨ c.organicMedia = some l ∨ c.organicRf = some l) ∧ ch ∈ l

/-- Every channel of the type has the function it was given, or the default. -/
def FunsRight (m : List (String × String)) (default : String) (chs : Option (List String))
    (f : Funs) : Prop :=
  ∀ l, chs = some l → ∀ (i : ℕ) ch, l[i]? = some ch →
    ∃ v, funAt f i = some v ∧ ValueOf m default ch v

/-- Every channel has the function it was given, or the default. -/
def SpecRight (m : List (String × String)) (default : String) (c : Channels) (s : FunSpec) : Prop :=
  FunsRight m default c.media s.media ∧ FunsRight m default c.rf s.rf ∧
    FunsRight m default c.organicMedia s.organicMedia ∧ FunsRight m default c.organicRf s.organicRf

/-- The prior type in force: the specific one, else the common one, else ROI. -/
def PriorType (specific common : Option String) (t : String) : Prop :=
  specific = some t ∨ specific = none ∧ common = some t ∨
    specific = none ∧ common = none ∧ t = "roi"

/-- A coherent specification. -/
structure Coherent (s : Spec) : Prop where
  effects : s.mediaEffectsDist = "normal" ∨ s.mediaEffectsDist = "log_normal"
  common : s.paidMediaPriorType = none ∨ s.mediaPriorType = none ∧ s.rfPriorType = none
  paid : ∀ specific ∈ [s.mediaPriorType, s.rfPriorType], ∀ t,
    PriorType specific s.paidMediaPriorType t →
      t = "roi" ∨ t = "mroi" ∨ t = "coefficient" ∨ t = "contribution"
  nonPaid : ∀ t ∈ [s.organicMediaPriorType, s.organicRfPriorType, s.nonMediaPriorType],
    t = "coefficient" ∨ t = "contribution"
  /-- a calibration period needs ROI priors and two dimensions -/
  roiCalibration : ∀ sh, s.roiCalibration = some sh →
    PriorType s.mediaPriorType s.paidMediaPriorType "roi" ∧ sh.length = 2
  rfRoiCalibration : ∀ sh, s.rfRoiCalibration = some sh →
    PriorType s.rfPriorType s.paidMediaPriorType "roi" ∧ sh.length = 2
  /-- knots: nothing, or an integer that is not zero or a list of integers that is not empty -/
  knots : s.knots = .none ∨ s.enableAks = false ∧
    ((∃ k, s.knots = .int k ∧ k ≠ 0) ∨ ∃ l : List ℤ, s.knots = .coll (l.map some) ∧ l ≠ [])
  saturation : (∃ f, s.saturation = .all f ∧ (f = "hill" ∨ f = "none")) ∨
    ∃ m, s.saturation = .byChannel m ∧ ∀ c f, (c, f) ∈ m → f = "hill" ∨ f = "none"

/-- The options fit the data. -/
structure Fits (z : Sizes) (s : Shapes) : Prop where
  roi : ∀ sh, s.roiCalibration = some sh → sh = [z.nMediaTimes, z.nMedia]
  rfRoi : ∀ sh, s.rfRoiCalibration = some sh → sh = [z.nMediaTimes, z.nRf]
  holdout : ∀ sh, s.holdout = some sh →
    (z.nGeos = 1 → sh = [z.nTimes]) ∧ (z.nGeos ≠ 1 → sh = [z.nGeos, z.nTimes])
  controls : ∀ sh, s.controlScaling = some sh → sh = [z.nControls]
  nonMedia : ∀ sh, s.nonMediaScaling = some sh → sh = [z.nNonMedia]

/-- The treatment of a channel that is scaled by population (per capita, zero in a geo without
population) or not. -/
def perCapita (x : ℕ → ℕ → ℕ → ℚ) (population : ℕ → ℚ) (scaled : ℕ → Prop) [DecidablePred scaled]
    (c g t : ℕ) : ℚ :=
  if scaled c then (if population g = 0 then 0 else x g t c / population g) else x g t c

/-- `q` is the baseline the rule asks for: the smallest or largest value, or the number given. -/
def IsBaseline (x : ℕ → ℕ → ℚ) (G T : ℕ) (rule : Baseline) (q : ℚ) : Prop :=
  (rule = .str "min" ∧ (∃ g < G, ∃ t < T, x g t = q) ∧ ∀ g < G, ∀ t < T, q ≤ x g t) ∨
  (rule = .str "max" ∧ (∃ g < G, ∃ t < T, x g t = q) ∧ ∀ g < G, ∀ t < T, x g t ≤ q) ∨
  rule = .num q

end Verif.Options.Spec
