import Verif.Model.AlphaPrior
import Verif.Spec.AlphaPrior
import Mathlib.MeasureTheory.Function.JacobianOneDim
import Mathlib.MeasureTheory.Measure.Dirac
import Mathlib.Analysis.SpecialFunctions.Log.Deriv
import Mathlib.Tactic.FieldSimp
import Mathlib.Tactic.Linarith
import Mathlib.Tactic.Positivity

namespace Verif.AlphaPrior.Props

open MeasureTheory Set Verif.Adstock Verif.AlphaPrior Verif.AlphaPrior.Spec

theorem forward_eq (x : ℝ) : unitMap.forward x = 1 / (x + 1) := rfl

theorem inverse_eq (y : ℝ) : unitMap.inverse y = 1 / y - 1 := rfl

theorem measurable_forward : Measurable unitMap.forward :=
  measurable_const.div (measurable_id.add_const 1)

theorem measurableSet_neg : MeasurableSet {x : ℝ | x < 0} := measurableSet_Iio

theorem forward_mem_iff (x : ℝ) : (0 < unitMap.forward x ∧ unitMap.forward x ≤ 1) ↔ 0 ≤ x := by
  rw [forward_eq]
  constructor
  · rintro ⟨h0, h1⟩
    have hp : 0 < x + 1 := by
      by_contra hn
      exact absurd h0 (not_lt.2 (div_nonpos_of_nonneg_of_nonpos zero_le_one (not_lt.1 hn)))
    rw [div_le_one hp] at h1
    linarith
  · intro h
    have hp : 0 < x + 1 := by linarith
    exact ⟨div_pos one_pos hp, (div_le_one hp).2 (by linarith)⟩

/-- **C117 (range).** The transformed prior is in the range of `alpha` if and only if the declared one has no
negative values.  Nothing checks the declared one. -/
theorem range_iff (μ : Measure ℝ) : InUnitRange (transformed μ) ↔ NonNegative μ := by
  have hm : MeasurableSet {a : ℝ | ¬ (0 < a ∧ a ≤ 1)} :=
    ((measurableSet_lt measurable_const measurable_id).inter
      (measurableSet_le measurable_id measurable_const)).compl
  unfold InUnitRange NonNegative transformed
  rw [Measure.map_apply measurable_forward hm]
  have : unitMap.forward ⁻¹' {a | ¬ (0 < a ∧ a ≤ 1)} = {x | x < 0} := by
    ext x
    simp only [mem_preimage, mem_setOf_eq]
    rw [forward_mem_iff, not_le]
  rw [this]

/-- The total mass is kept. -/
theorem mass_kept (μ : Measure ℝ) : transformed μ univ = μ univ := by
  unfold transformed
  rw [Measure.map_apply measurable_forward MeasurableSet.univ, preimage_univ]

theorem exponent_of (x : ℝ) (h : 0 ≤ x) : mapAlphaBinomial (unitMap.forward x) = some x := by
  have hp : x + 1 ≠ 0 := by linarith
  unfold mapAlphaBinomial
  rw [forward_eq, if_neg (by positivity)]
  congr 1
  field_simp
  ring

/-- **C117 (the exponent).** The exponent that the binomial decay makes of `alpha` has the declared
distribution: for every set of exponents, the transformed prior of the values of `alpha` that are mapped into
it is the declared prior of the set. -/
theorem exponent_prior (μ : Measure ℝ) (h : NonNegative μ) (S : Set ℝ) (hS : MeasurableSet S) :
    transformed μ {a | ∃ e ∈ S, mapAlphaBinomial a = some e} = μ S := by
  have hset : {a : ℝ | ∃ e ∈ S, mapAlphaBinomial a = some e} = {a | a ≠ 0} ∩ (fun a => 1 / a - 1) ⁻¹' S := by
    ext a
    simp only [mem_setOf_eq, mem_inter_iff, mem_preimage, mapAlphaBinomial]
    constructor
    · rintro ⟨e, he, hae⟩
      split at hae
      · cases hae
      · next h0 => exact ⟨h0, by rw [Option.some.inj hae]; exact he⟩
    · rintro ⟨h0, hs⟩
      exact ⟨_, hs, by rw [if_neg h0]⟩
  have hm : MeasurableSet {a : ℝ | ∃ e ∈ S, mapAlphaBinomial a = some e} := by
    rw [hset]
    have hf : Measurable fun a : ℝ => 1 / a - 1 := (measurable_const.div measurable_id).sub_const 1
    exact (measurableSet_singleton (0 : ℝ)).compl.inter (hf hS)
  unfold transformed
  rw [Measure.map_apply measurable_forward hm]
  apply measure_congr
  have hae : ∀ᵐ x ∂μ, 0 ≤ x := by
    rw [ae_iff]
    simpa [NonNegative, not_le] using h
  filter_upwards [hae] with x hx
  have : (unitMap.forward ⁻¹' {a | ∃ e ∈ S, mapAlphaBinomial a = some e}) x ↔ S x := by
    show (∃ e ∈ S, mapAlphaBinomial (unitMap.forward x) = some e) ↔ x ∈ S
    rw [exponent_of x hx]
    constructor
    · rintro ⟨e, he, hxe⟩
      rw [Option.some.inj hxe]
      exact he
    · intro hs
      exact ⟨x, hs, rfl⟩
  exact propext this

/-- **C117 (the weights).** With a draw `x` of the declared prior, the weights of a channel with binomial
decay are those with exponent `x`. -/
theorem weights_of_draw (x : ℝ) (h : 0 ≤ x) (W : ℕ) (ls : List ℕ) :
    decayWeights .binomial (unitMap.forward x) ls W false = binomialWeights x W ls ∧
      decayWeights .binomial (unitMap.forward x) ls W true = normalised (binomialWeights x W ls) := by
  have hw : ls.map (rawWeight .binomial (unitMap.forward x) W) = binomialWeights x W ls := by
    unfold binomialWeights
    apply List.map_congr_left
    intro l _
    simp only [rawWeight, exponent_of x h, powExt]
  constructor
  · simp only [decayWeights, hw, Bool.false_eq_true, if_false]
  · simp only [decayWeights, hw, if_true]
    rfl

/-- **C117 (order).** A larger exponent is a smaller `alpha`: the probability that `alpha` is at most the
image of `x` is the declared probability of at least `x`. -/
theorem order_reversed (μ : Measure ℝ) (h : NonNegative μ) (x : ℝ) (hx : 0 ≤ x) :
    transformed μ {a | a ≤ unitMap.forward x} = μ {y | x ≤ y} := by
  have hm : MeasurableSet {a : ℝ | a ≤ unitMap.forward x} := measurableSet_Iic
  unfold transformed
  rw [Measure.map_apply measurable_forward hm]
  apply measure_congr
  have hae : ∀ᵐ y ∂μ, 0 ≤ y := by
    rw [ae_iff]
    simpa [NonNegative, not_le] using h
  filter_upwards [hae] with y hy
  have : unitMap.forward y ≤ unitMap.forward x ↔ x ≤ y := by
    rw [forward_eq, forward_eq, one_div_le_one_div (by linarith) (by linarith)]
    constructor <;> intro <;> linarith
  exact propext this

/-- **C117 (density).** If the declared prior has the density `exp (log_prob)` on the non-negative numbers, the
transformed one has the density `exp (log_prob)` of the result on the numbers above zero and at most one. -/
theorem density_correct (logp : ℝ → ℝ) :
    transformed ((volume.restrict {x : ℝ | 0 ≤ x}).withDensity fun x => ENNReal.ofReal (Real.exp (logp x))) =
      (volume.restrict {y : ℝ | 0 < y ∧ y ≤ 1}).withDensity
        fun y => ENNReal.ofReal (Real.exp (logProb logp y)) := by
  have hA : MeasurableSet {x : ℝ | 0 ≤ x} := measurableSet_Ici
  have hB : MeasurableSet {y : ℝ | 0 < y ∧ y ≤ 1} := measurableSet_Ioc
  ext S hS
  have hpre : MeasurableSet (unitMap.forward ⁻¹' S) := measurable_forward hS
  unfold transformed
  rw [Measure.map_apply measurable_forward hS, withDensity_apply _ hpre, withDensity_apply _ hS,
    Measure.restrict_restrict hpre, Measure.restrict_restrict hS]
  have himg : unitMap.forward ⁻¹' S ∩ {x | 0 ≤ x} = unitMap.inverse '' (S ∩ {y | 0 < y ∧ y ≤ 1}) := by
    ext x
    simp only [mem_inter_iff, mem_preimage, mem_setOf_eq, mem_image]
    constructor
    · rintro ⟨hs, hx⟩
      refine ⟨unitMap.forward x, ⟨hs, (forward_mem_iff x).2 hx⟩, ?_⟩
      have hp : x + 1 ≠ 0 := by linarith
      rw [inverse_eq, forward_eq]
      field_simp
      ring
    · rintro ⟨y, ⟨hs, h0, h1⟩, rfl⟩
      have hf : unitMap.forward (unitMap.inverse y) = y := by
        rw [inverse_eq, forward_eq]
        have : y ≠ 0 := h0.ne'
        field_simp
        ring
      refine ⟨by rw [hf]; exact hs, ?_⟩
      rw [← forward_mem_iff, hf]
      exact ⟨h0, h1⟩
  rw [himg]
  have hC : MeasurableSet (S ∩ {y : ℝ | 0 < y ∧ y ≤ 1}) := hS.inter hB
  rw [lintegral_image_eq_lintegral_abs_deriv_mul hC (f' := fun y => -(y ^ 2)⁻¹)]
  · apply setLIntegral_congr_fun hC
    rintro y ⟨-, h0, -⟩
    show ENNReal.ofReal |-(y ^ 2)⁻¹| * ENNReal.ofReal (Real.exp (logp (unitMap.inverse y))) = _
    rw [← ENNReal.ofReal_mul (abs_nonneg _)]
    congr 1
    have hld : unitMap.inverseLogDet y = -2 * Real.log |y| + 0 := rfl
    rw [logProb, hld, abs_of_pos h0, add_zero, Real.exp_add, mul_comm, abs_neg, abs_of_pos (by positivity)]
    congr 1
    have : -2 * Real.log y = -(Real.log y + Real.log y) := by ring
    rw [this, Real.exp_neg, Real.exp_add, Real.exp_log h0, pow_two]
  · rintro y ⟨-, h0, -⟩
    have h1 : HasDerivAt (fun y : ℝ => 1 / y - 1) (-(y ^ 2)⁻¹) y := by
      have := (hasDerivAt_inv h0.ne').sub_const 1
      simpa [one_div] using this
    exact h1.hasDerivWithinAt
  · rintro a ⟨-, ha, -⟩ b ⟨-, hb, -⟩ hab
    have hab' : 1 / a - 1 = 1 / b - 1 := hab
    have : 1 / a = 1 / b := by linarith
    rw [one_div, one_div] at this
    exact inv_injective this

/-- **Finding.**  A point mass of `alpha` at one is refused, but the same prior declared as an exponent of zero
is accepted: the result is not of the class that is looked at, and has no quantiles. -/
theorem point_mass_slips (image : Priors.E → Priors.E) (tag : ℕ) (b : Priors.Bound) (hb : b ∈ Priors.bounds)
    (hn : b.name ∈ ["alpha_m", "alpha_rf", "alpha_om", "alpha_orf"]) :
    transformed (Measure.dirac 0) = Measure.dirac 1 ∧
      Priors.validateSupport b (.scalar ⟨.deterministic (.fin 1), false, tag⟩) = .error .pointMass ∧
      Priors.validateSupport b (.scalar ⟨seenAs image (.deterministic (.fin 0)), false, tag⟩) = .ok () := by
  refine ⟨?_, ?_, ?_⟩
  · unfold transformed
    rw [Measure.map_dirac' measurable_forward]
    congr 1
    rw [forward_eq]
    norm_num
  · fin_cases hb <;> first | rfl | (exfalso; revert hn; decide)
  · rfl

example : NonNegative (Measure.dirac 2) ∧ transformed (Measure.dirac 2) = Measure.dirac (1 / 3) := by
  constructor
  · unfold NonNegative
    rw [Measure.dirac_apply' _ measurableSet_neg]
    simp
  · unfold transformed
    rw [Measure.map_dirac' measurable_forward]
    congr 1
    rw [forward_eq]
    norm_num

example : ¬ InUnitRange (transformed (Measure.dirac (-3))) := by
  rw [range_iff]
  unfold NonNegative
  rw [Measure.dirac_apply' _ measurableSet_neg]
  simp

/-- The exponential distribution as a prior on the exponent: the density of `alpha` is `exp (1 - 1 / y) / y²`. -/
example (y : ℝ) (hy : 0 < y) : Real.exp (logProb (fun x => -x) y) = Real.exp (1 - 1 / y) / y ^ 2 := by
  have hld : unitMap.inverseLogDet y = -2 * Real.log |y| + 0 := rfl
  rw [logProb, hld, inverse_eq, abs_of_pos hy, add_zero, Real.exp_add, div_eq_mul_inv]
  congr 1
  · congr 1
    ring
  · have : -2 * Real.log y = -(Real.log y + Real.log y) := by ring
    rw [this, Real.exp_neg, Real.exp_add, Real.exp_log hy, pow_two]

example : ∃ b ∈ Priors.bounds, b.name ∈ ["alpha_m", "alpha_rf", "alpha_om", "alpha_orf"] :=
  ⟨⟨"alpha_m", .fin 0, .fin 1, false, true⟩, by simp [Priors.bounds], by simp⟩

example : decayWeights .binomial (unitMap.forward 2) [2, 1, 0] 3 false = [(1 - ((2 : ℕ) : ℝ) / 3) ^ (2 : ℝ),
    (1 - ((1 : ℕ) : ℝ) / 3) ^ (2 : ℝ), (1 - ((0 : ℕ) : ℝ) / 3) ^ (2 : ℝ)] :=
  (weights_of_draw 2 (by norm_num) 3 [2, 1, 0]).1

end Verif.AlphaPrior.Props
